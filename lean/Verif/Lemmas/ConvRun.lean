import Verif.Lemmas.Dot
import Verif.Props.Pool

/-! # Convolution: one output element -/

namespace Mli

open Spec

/-! ## Sizes -/

theorem length_rowMajor : ∀ ns : List Int, (rowMajor ns).length = (ns.map Int.toNat).prod
  | [] => rfl
  | n :: ns => by simp [rowMajor, List.length_flatMap, length_rowMajor ns]

/-- An accepted tensor of less than 2 GiB has less than `2 ^ 31` elements. -/
theorem Tensor.Valid.count_le {t : Tensor} {b : Buf} (h : t.Valid b) : (((t.shape.map Int.toNat).prod : Nat) : Int) < 2 ^ 31 := by
  have hn := nodup_rowMajor t.shape
  have hb : ∀ is ∈ rowMajor t.shape, 0 ≤ offset t.strides is ∧ offset t.strides is < int32Max := by
    intro is hi
    obtain ⟨_, _, hd, _⟩ := checkTensorPrivate_ok h.accepted
    obtain ⟨a, b⟩ := offset_bounds t.dims is (fun d hd' => (hd d hd').1) (mem_rowMajor.mp hi)
    have hes : 1 ≤ t.es := by have := h.typed.2.2.2; omega
    have hs := h.small
    rw [footprint_eq] at hs
    have hsp := span_nonneg (ds := t.dims) (fun d hd' => ⟨(hd d hd').1, (hd d hd').2.1⟩)
    have : 1 + span t.dims ≤ (1 + span t.dims) * t.es := by nlinarith
    unfold Tensor.strides
    omega
  have hm : ((rowMajor t.shape).map fun is => (offset t.strides is).toNat).Nodup := by
    rw [List.nodup_map_iff_inj_on hn]
    intro is hi js hj e
    have := hb is hi
    have := hb js hj
    exact c09_accepted_no_alias t h.accepted is js (mem_rowMajor.mp hi) (mem_rowMajor.mp hj) (by omega)
  have hsub : ((rowMajor t.shape).map fun is => (offset t.strides is).toNat) ⊆ List.range int32Max.toNat := by
    intro a ha
    obtain ⟨is, hi, rfl⟩ := List.mem_map.1 ha
    have := hb is hi
    rw [List.mem_range]; omega
  have hl := (List.subperm_of_subset hm hsub).length_le
  rw [List.length_map, length_rowMajor, List.length_range] at hl
  have : int32Max = 2147483647 := by decide
  omega

/-! ## The clipped window -/

/-- No tap of an output position inside of the output reads beyond the part of the input that is
kept. -/
theorem adjust_tap {n k s p d o y i : Int} (hs : 0 ≤ s) (hd : 0 ≤ d) (hy : y < o) (hi : i < k) :
    (tapCoord s p d y i < (if (o * s + ((k - 1) * d + 1) - s) - n - p < 0 then n + ((o * s + ((k - 1) * d + 1) - s) - n - p) else n)) ↔
      tapCoord s p d y i < n := by
  have h1 : y * s ≤ (o - 1) * s := Int.mul_le_mul_of_nonneg_right (by omega) hs
  have h2 : i * d ≤ (k - 1) * d := Int.mul_le_mul_of_nonneg_right (by omega) hd
  have e : (o - 1) * s = o * s - s := by ring
  unfold tapCoord
  split <;> omega

/-- Clipping leaves a number of taps that is not negative if the last tap is not before the
input and the first not behind it. -/
theorem clip_nonneg (n k s p d o : Int) (hk : 0 ≤ k) (hd : 1 ≤ d) (hn : 0 ≤ n) (h1 : 0 ≤ tapCoord s p d o (k - 1)) (h2 : tapCoord s p d o 0 < n) :
    0 ≤ k - ceilDiv (-min (o * s - p) 0) d - ceilDiv (-min (n - (o * s - p + ((k - 1) * d + 1))) 0) d := by
  unfold tapCoord at h1 h2
  have a0 := ceilDiv_nonneg (a := -min (o * s - p) 0) (b := d) (by omega) (by omega)
  have b0 := ceilDiv_nonneg (a := -min (n - (o * s - p + ((k - 1) * d + 1))) 0) (b := d) (by omega) (by omega)
  have a1 := lt_ceilDiv_iff (a := -min (o * s - p) 0) (b := d) (i := ceilDiv (-min (o * s - p) 0) d - 1) (by omega) (by omega)
  have b1 := lt_ceilDiv_iff (a := -min (n - (o * s - p + ((k - 1) * d + 1))) 0) (b := d)
    (i := ceilDiv (-min (n - (o * s - p + ((k - 1) * d + 1))) 0) d - 1) (by omega) (by omega)
  generalize ht : ceilDiv (-min (o * s - p) 0) d = t at *
  generalize hb : ceilDiv (-min (n - (o * s - p + ((k - 1) * d + 1))) 0) d = b at *
  have ha := a1.1 (by omega)
  have hb' := b1.1 (by omega)
  by_contra hc
  have hc : k + 1 ≤ t + b := by omega
  have e1 : (t - 1) * d + (b - 1) * d = (t + b - 2) * d := by ring
  have e2 : (k - 1) * d ≤ (t + b - 2) * d := Int.mul_le_mul_of_nonneg_right (by omega) (by omega)
  by_cases t1 : t = 0
  · subst t1
    have e3 : (k - 1) * d ≤ (b - 1 - 1) * d := Int.mul_le_mul_of_nonneg_right (by omega) (by omega)
    have e4 : (b - 1 - 1) * d = (b - 1) * d - d := by ring
    by_cases b1 : b = 0
    · omega
    · have : 0 ≤ (b - 1) * d := Int.mul_nonneg (by omega) (by omega)
      omega
  · by_cases b1 : b = 0
    · subst b1
      have : (k - 1) * d ≤ (t - 1 - 1) * d := Int.mul_le_mul_of_nonneg_right (by omega) (by omega)
      have e4 : (t - 1 - 1) * d = (t - 1) * d - d := by ring
      have : 0 ≤ (t - 1) * d := Int.mul_nonneg (by omega) (by omega)
      omega
    · have : 0 ≤ (t - 1) * d := Int.mul_nonneg (by omega) (by omega)
      have : 0 ≤ (b - 1) * d := Int.mul_nonneg (by omega) (by omega)
      omega

/-- Input element at row `r`, column `q`, channel `c`. -/
def inElem (src : Buf) (tin : Tensor) (r q c : Int) : Int := src.get (tin.addr [r, q, c])

/-- Weight of tap `(i, j)`, input channel `c` and output channel `k`. -/
def wtElem (wts : Buf) (tw : Tensor) (k i j c : Int) : Int := wts.get (tw.addr [i, j, c, k])

/-- Tensors of a convolution, with `ch` channels of the input seen by a weight. -/
structure ConvT (tin tw : Tensor) (c : ConvCfg) (src wts : Buf) (ih iw ic kh kw kc kn : Dim) : Prop where
  vi : tin.Placed src
  vw : tw.Placed wts
  di : tin.dims = [ih, iw, ic]
  dk : tw.dims = [kh, kw, kc, kn]
  ui : ic.stride = 1
  dh : 1 ≤ c.dh
  dw : 1 ≤ c.dw

/-- Input view after the adjustment. -/
def inPrv (tin : Tensor) (ih iw ic : Dim) (H W : Int) : Prv :=
  { ptr := tin.base, width := W, height := H, ch := ic.shape, col := iw.stride, row := ih.stride }

/-- Weights view. -/
def wtPrv (tw : Tensor) (kh kw kc kn : Dim) : WPrv :=
  { ptr := tw.base, width := kw.shape, height := kh.shape, inCh := kc.shape, outCh := kn.shape,
    col := kw.stride, row := kh.stride, inChS := kc.stride, outChS := kn.stride }

/-- The clipped window at output position `(y, x)`: how many taps remain, where they are. -/
structure IsWin (tin tw : Tensor) (c : ConvCfg) (ih iw ic kh kw kc kn : Dim) (y x : Int) (v : Win) (t b l r : Int) : Prop where
  t0 : 0 ≤ t
  b0 : 0 ≤ b
  l0 : 0 ≤ l
  r0 : 0 ≤ r
  rows : v.rows = kh.shape - t - b
  clmns : v.clmns = kw.shape - r - l
  rowIn : ∀ i, 0 ≤ i → i < kh.shape → ((t ≤ i ∧ i < kh.shape - b) ↔ (0 ≤ tapCoord c.sh c.pt c.dh y i ∧ tapCoord c.sh c.pt c.dh y i < ih.shape))
  colIn : ∀ j, 0 ≤ j → j < kw.shape → ((l ≤ j ∧ j < kw.shape - r) ↔ (0 ≤ tapCoord c.sw c.pl c.dw x j ∧ tapCoord c.sw c.pl c.dw x j < iw.shape))
  inPtr : v.inPtr = tin.base + ih.stride * tapCoord c.sh c.pt c.dh y t + iw.stride * tapCoord c.sw c.pl c.dw x l
  wPtr : v.wPtr = tw.base + kh.stride * t + kw.stride * l

theorem convWin_isWin {tin tw : Tensor} {c : ConvCfg} {src wts : Buf} {ih iw ic kh kw kc kn : Dim}
    (T : ConvT tin tw c src wts ih iw ic kh kw kc kn) {H W y x : Int}
    (hH : ∀ i, i < kh.shape → (tapCoord c.sh c.pt c.dh y i < H ↔ tapCoord c.sh c.pt c.dh y i < ih.shape))
    (hW : ∀ j, j < kw.shape → (tapCoord c.sw c.pl c.dw x j < W ↔ tapCoord c.sw c.pl c.dw x j < iw.shape)) :
    ∃ t b l r, IsWin tin tw c ih iw ic kh kw kc kn y x (convWin c (inPrv tin ih iw ic H W) (wtPrv tw kh kw kc kn) y x) t b l r := by
  obtain ⟨h1, h2, ⟨h3, h4⟩, h5, h6, h7, h8⟩ := c35_valid_area y x H W kh.shape kw.shape c.sh c.sw c.pl c.pt c.dh c.dw T.dh T.dw
  refine ⟨_, _, _, _, ⟨h5, h6, h7, h8, rfl, rfl, ?_, ?_, ?_, rfl⟩⟩
  · intro i i0 i1
    rw [h1 i i0 i1, hH i i1]
  · intro j j0 j1
    rw [h2 j j0 j1, hW j j1]
  · simp only [convWin, inPrv, wtPrv, h3, h4]

variable {tin tw : Tensor} {c : ConvCfg} {src wts : Buf} {ih iw ic kh kw kc kn : Dim}

theorem IsWin.inTap {y x t b l r : Int} {v : Win} (T : ConvT tin tw c src wts ih iw ic kh kw kc kn)
    (h : IsWin tin tw c ih iw ic kh kw kc kn y x v t b l r) {i j ch : Nat}
    (hi : i < v.rows.toNat) (hj : j < v.clmns.toNat) (hc : (ch : Int) < ic.shape) :
    src.rd (v.inPtr + 1 * ch + ih.stride * c.dh * i + iw.stride * c.dw * j) =
      some (inElem src tin (tapCoord c.sh c.pt c.dh y (t + i)) (tapCoord c.sw c.pl c.dw x (l + j)) ch) := by
  have hr := h.rows; have hcl := h.clmns
  have t0 := h.t0; have b0 := h.b0; have l0 := h.l0; have r0 := h.r0
  have s1 := (h.rowIn (t + i) (by omega) (by omega)).1 (by omega)
  have s2 := (h.colIn (l + j) (by omega) (by omega)).1 (by omega)
  have hs : InShape tin.shape [tapCoord c.sh c.pt c.dh y (t + i), tapCoord c.sw c.pl c.dw x (l + j), (ch : Int)] := by
    simp only [Tensor.shape, T.di, List.map_cons, List.map_nil, InShape]
    exact ⟨s1, s2, ⟨by omega, hc⟩, trivial⟩
  have e := T.vi.rd hs rfl
  rw [inElem, ← e]
  congr 1
  rw [h.inPtr]
  simp only [Tensor.addr, Tensor.strides, T.di, List.map_cons, List.map_nil, offset, T.ui, tapCoord]
  ring

theorem IsWin.wtTap {y x t b l r : Int} {v : Win} (T : ConvT tin tw c src wts ih iw ic kh kw kc kn)
    (h : IsWin tin tw c ih iw ic kh kw kc kn y x v t b l r) {i j ch oc : Nat}
    (hi : i < v.rows.toNat) (hj : j < v.clmns.toNat) (hc : (ch : Int) < kc.shape) (ho : (oc : Int) < kn.shape) :
    wts.rd (v.wPtr + kn.stride * oc + kc.stride * ch + kh.stride * i + kw.stride * j) =
      some (wtElem wts tw oc (t + i) (l + j) ch) := by
  have hr := h.rows; have hcl := h.clmns
  have t0 := h.t0; have b0 := h.b0; have l0 := h.l0; have r0 := h.r0
  have hs : InShape tw.shape [t + i, l + j, (ch : Int), (oc : Int)] := by
    simp only [Tensor.shape, T.dk, List.map_cons, List.map_nil, InShape]
    exact ⟨by omega, by omega, by omega, by omega, trivial⟩
  have e := T.vw.rd hs rfl
  rw [wtElem, ← e]
  congr 1
  rw [h.wPtr]
  simp only [Tensor.addr, Tensor.strides, T.dk, List.map_cons, List.map_nil, offset]
  ring

theorem wt_full (T : ConvT tin tw c src wts ih iw ic kh kw kc kn) {i j ch oc : Nat}
    (hi : i < kh.shape.toNat) (hj : j < kw.shape.toNat) (hc : (ch : Int) < kc.shape) (ho : (oc : Int) < kn.shape) :
    wts.rd (tw.base + kn.stride * oc + kc.stride * ch + kh.stride * i + kw.stride * j) =
      some (wtElem wts tw oc i j ch) := by
  have hs : InShape tw.shape [(i : Int), (j : Int), (ch : Int), (oc : Int)] := by
    simp only [Tensor.shape, T.dk, List.map_cons, List.map_nil, InShape]
    exact ⟨by omega, by omega, by omega, by omega, trivial⟩
  have e := T.vw.rd hs rfl
  rw [wtElem, ← e]
  congr 1
  simp only [Tensor.addr, Tensor.strides, T.dk, List.map_cons, List.map_nil, offset]
  ring

/-- The sum over the taps of the clipped window. -/
theorem IsWin.sum {y x t b l r : Int} {v : Win} (T : ConvT tin tw c src wts ih iw ic kh kw kc kn)
    (h : IsWin tin tw c ih iw ic kh kw kc kn y x v t b l r) (n : Nat) (X W : Int → Int → Int → Int) :
    convSum kh.shape kw.shape n (padded ih.shape iw.shape 0 X) W c.sh c.sw c.pt c.pl c.dh c.dw y x =
      boxSum n v.rows.toNat v.clmns.toNat fun cc i j =>
        X (tapCoord c.sh c.pt c.dh y (t + i)) (tapCoord c.sw c.pl c.dw x (l + j)) cc * W (t + i) (l + j) cc := by
  have p1 := T.vw.shape_pos kh (by simp [T.dk])
  have p2 := T.vw.shape_pos kw (by simp [T.dk])
  have e1 : ((kh.shape.toNat : Nat) : Int) = kh.shape := by omega
  have e2 : ((kw.shape.toNat : Nat) : Int) = kw.shape := by omega
  have t0 := h.t0; have l0 := h.l0; have b0 := h.b0; have r0 := h.r0
  unfold convSum
  rw [clip3 kh.shape.toNat kw.shape.toNat (n : Int).toNat t b l r h.t0 h.b0 h.l0 h.r0]
  · rw [e1, e2, ← h.rows, ← h.clmns, Int.toNat_natCast]
    apply boxSum_congr
    intro cc i j hc hi hj
    have hr := h.rows; have hcl := h.clmns
    have c1 : ((t.toNat + i : Nat) : Int) = t + i := by omega
    have c2 : ((l.toNat + j : Nat) : Int) = l + j := by omega
    have s1 := (h.rowIn (t + i) (by omega) (by omega)).1 (by omega)
    have s2 := (h.colIn (l + j) (by omega) (by omega)).1 (by omega)
    rw [c1, c2, padded, if_pos ⟨s1.1, s1.2, s2.1, s2.2⟩]
  · intro i j cc hi hj hn
    rw [e1, e2] at hn
    rw [padded, if_neg, Int.zero_mul]
    intro hs
    exact hn ⟨(h.rowIn i (by omega) (by omega)).2 ⟨hs.1, hs.2.1⟩, (h.colIn j (by omega) (by omega)).2 ⟨hs.2.2.1, hs.2.2.2⟩⟩

theorem IsWin.le {y x t b l r : Int} {v : Win} (h : IsWin tin tw c ih iw ic kh kw kc kn y x v t b l r) :
    v.rows.toNat ≤ kh.shape.toNat ∧ v.clmns.toNat ≤ kw.shape.toNat := by
  have hr := h.rows; have hcl := h.clmns
  have t0 := h.t0; have b0 := h.b0; have l0 := h.l0; have r0 := h.r0
  omega

theorem box_le {C H W H' W' : Nat} (hH : H ≤ H') (hW : W ≤ W') {B : Int} (hB : 0 ≤ B) :
    (C : Int) * (H * (W * B)) ≤ C * (H' * (W' * B)) := by
  apply Int.mul_le_mul_of_nonneg_left _ (by omega)
  have h1 : (W : Int) * B ≤ W' * B := Int.mul_le_mul_of_nonneg_right (by omega) hB
  have h2 : (H : Int) * (W * B) ≤ H * (W' * B) := Int.mul_le_mul_of_nonneg_left h1 (by omega)
  have h3 : (0 : Int) ≤ W' * B := Int.mul_nonneg (by omega) hB
  have h4 : (H : Int) * (W' * B) ≤ H' * (W' * B) := Int.mul_le_mul_of_nonneg_right (by omega) h3
  omega

/-- Number of taps of one output element. -/
def taps (kh kw ic : Dim) : Nat := ic.shape.toNat * (kh.shape.toNat * kw.shape.toNat)

theorem taps_mul (kh kw ic : Dim) (B : Int) :
    (ic.shape.toNat : Int) * (kh.shape.toNat * (kw.shape.toNat * B)) = taps kh kw ic * B := by
  unfold taps; push_cast; ring

/-- Elements of a buffer that belong to a tensor fit `w` bits. -/
def Tensor.Holds (t : Tensor) (b : Buf) (w : Nat) : Prop := ∀ is, InShape t.shape is → InRange w (b.get (t.addr is))

/-- With a bias (weights zero point 0): what is handed to the rounding and limiting step is the exact
sum of the products. -/
theorem convBias_run (T : ConvT tin tw c src wts ih iw ic kh kw kc kn) (q : ConvQ) (hzw : q.zw = 0) (hzx : wrap 16 (-q.zx) = -q.zx)
    (hch : ic.shape = kc.shape) (post : Int → Int → Int → Int) (bias : Buf) (bptr bv : Int) {H W : Int} {y x oc : Nat}
    (hH : ∀ i, i < kh.shape → (tapCoord c.sh c.pt c.dh y i < H ↔ tapCoord c.sh c.pt c.dh y i < ih.shape))
    (hW : ∀ j, j < kw.shape → (tapCoord c.sw c.pl c.dw x j < W ↔ tapCoord c.sw c.pl c.dw x j < iw.shape))
    (hrow : ∃ i, 0 ≤ i ∧ i < kh.shape ∧ 0 ≤ tapCoord c.sh c.pt c.dh y i ∧ tapCoord c.sh c.pt c.dh y i < ih.shape)
    (hoc : (oc : Int) < kn.shape) (B1 B2 : Int)
    (hB1 : ∀ is js, InShape tin.shape is → InShape tw.shape js → |src.get (tin.addr is) * wts.get (tw.addr js)| ≤ B1)
    (hB2 : ∀ js, InShape tw.shape js → |-q.zx * wts.get (tw.addr js)| ≤ B2)
    (hfit : taps kh kw ic * (B1 + B2) ≤ hi q.aw) (hb : bias.rd (bptr + oc) = some bv) :
    convBias q post src wts bias bptr c (inPrv tin ih iw ic H W) (wtPrv tw kh kw kc kn) y x oc =
      some (post oc bv (convSum kh.shape kw.shape ic.shape (padded ih.shape iw.shape 0 fun r p k => inElem src tin r p k - q.zx)
        (wtElem wts tw oc) c.sh c.sw c.pt c.pl c.dh c.dw y x)) := by
  obtain ⟨t, b, l, r, h⟩ := convWin_isWin T hH hW
  unfold convBias convCore
  simp only []
  generalize hv : convWin c (inPrv tin ih iw ic H W) (wtPrv tw kh kw kc kn) y x = v at h
  have t0 := h.t0; have b0 := h.b0; have l0 := h.l0; have r0 := h.r0
  have hr := h.rows; have hcl := h.clmns
  have p1 := T.vw.shape_pos kh (by simp [T.dk])
  have p2 := T.vw.shape_pos kw (by simp [T.dk])
  have p3 := T.vw.shape_pos kc (by simp [T.dk])
  have p4 := T.vw.shape_pos kn (by simp [T.dk])
  have q1 := T.vi.shape_pos ih (by simp [T.di])
  have q2 := T.vi.shape_pos iw (by simp [T.di])
  have e3 : ((ic.shape.toNat : Nat) : Int) = ic.shape := by omega
  have rpos : 0 < v.rows := by
    obtain ⟨i, i0, i1, hi⟩ := hrow
    have := (h.rowIn i i0 i1).2 hi
    omega
  have sIn : InShape tin.shape [0, 0, 0] := by
    simp only [Tensor.shape, T.di, List.map_cons, List.map_nil, InShape]; exact ⟨by omega, by omega, by omega, trivial⟩
  have sWt : InShape tw.shape [0, 0, 0, 0] := by
    simp only [Tensor.shape, T.dk, List.map_cons, List.map_nil, InShape]
    exact ⟨by omega, by omega, by omega, by omega, trivial⟩
  have nB1 : 0 ≤ B1 := le_trans (abs_nonneg _) (hB1 _ _ sIn sWt)
  have nB2 : 0 ≤ B2 := le_trans (abs_nonneg _) (hB2 _ sWt)
  have insI : ∀ cc i j : Nat, cc < ic.shape.toNat → i < v.rows.toNat → j < v.clmns.toNat →
      InShape tin.shape [tapCoord c.sh c.pt c.dh y (t + i), tapCoord c.sw c.pl c.dw x (l + j), (cc : Int)] := by
    intro cc i j hc hi hj
    simp only [Tensor.shape, T.di, List.map_cons, List.map_nil, InShape]
    exact ⟨(h.rowIn (t + i) (by omega) (by omega)).1 (by omega), (h.colIn (l + j) (by omega) (by omega)).1 (by omega), by omega, trivial⟩
  have insW : ∀ cc i j : Nat, cc < ic.shape.toNat → i < v.rows.toNat → j < v.clmns.toNat →
      InShape tw.shape [t + i, l + j, (cc : Int), (oc : Int)] := by
    intro cc i j hc hi hj
    simp only [Tensor.shape, T.dk, List.map_cons, List.map_nil, InShape]
    exact ⟨by omega, by omega, by omega, by omega, trivial⟩
  have A1 := dotprod3D_adds (aw := q.aw) (src := src) (wts := wts) (p := v.inPtr) (q := v.wPtr + kn.stride * oc) (W := v.clmns)
    (H := v.rows) (C := ic.shape) (ics := iw.stride * c.dw) (irs := ih.stride * c.dh) (ichs := 1) (kcs := kw.stride) (krs := kh.stride)
    (kchs := kc.stride) rpos
    (fun cc i j => inElem src tin (tapCoord c.sh c.pt c.dh y (t + i)) (tapCoord c.sw c.pl c.dw x (l + j)) cc)
    (fun cc i j => wtElem wts tw oc (t + i) (l + j) cc) B1
    (fun cc i j hc hi hj => h.inTap T hi hj (by omega))
    (fun cc i j hc hi hj => h.wtTap T hi hj (by omega) hoc)
    (fun cc i j hc hi hj => hB1 _ _ (insI cc i j hc hi hj) (insW cc i j hc hi hj))
  have A2 := wAdd3D_adds (q := q) (wts := wts) (p := v.wPtr + kn.stride * oc) (W := v.clmns) (H := v.rows) (C := ic.shape)
    (cs := kw.stride) (rs := kh.stride) (chs := kc.stride) (fun cc i j => wtElem wts tw oc (t + i) (l + j) cc) B2 hzx
    (fun cc i j hc hi hj => h.wtTap T hi hj (by omega) hoc)
    (fun cc i j hc hi hj => hB2 _ (insW cc i j hc hi hj)) nB2
  have A3 := zpAdd_adds (q := q) (v.clmns * v.rows)
  have AA := (A1.comp (A2.comp A3)).2 0
  have m1 := box_le (C := ic.shape.toNat) h.le.1 h.le.2 nB1
  have m2 := box_le (C := ic.shape.toNat) h.le.1 h.le.2 nB2
  rw [taps_mul] at m1 m2
  rw [hzw] at AA
  simp only [Int.mul_zero, abs_zero, Int.add_zero, Int.zero_add] at AA
  have hlo := lo_eq q.aw; have hhi := hi_eq q.aw
  have efit : (taps kh kw ic : Int) * (B1 + B2) = taps kh kw ic * B1 + taps kh kw ic * B2 := by ring
  have AA := AA (by omega) (by omega)
  have i0 : ∀ a, inAdd3D q src v.inPtr a v.clmns v.rows (inPrv tin ih iw ic H W).ch (inPrv tin ih iw ic H W).col
      (inPrv tin ih iw ic H W).row 1 = some a := by
    intro a; unfold inAdd3D; rw [if_neg (by simp [hzw])]
  simp only [i0]
  simp only [inPrv, wtPrv]
  rw [Option.bind_eq_some_iff] at AA
  obtain ⟨a1, x1, AA⟩ := AA
  rw [Option.bind_eq_some_iff] at AA
  obtain ⟨a2, x2, AA⟩ := AA
  simp only [x1, Option.bind_some, x2, AA, hb, Option.map_some]
  have hs := h.sum T ic.shape.toNat (fun r p k => inElem src tin r p k - q.zx) (wtElem wts tw oc)
  rw [e3] at hs
  rw [hs, boxSum_add]
  congr 2
  apply boxSum_congr
  intro cc i j _ _ _
  ring

/-- Depthwise, with a bias (weights zero point 0). -/
theorem dwBias_run (T : ConvT tin tw c src wts ih iw ic kh kw kc kn) (q : ConvQ) (hzw : q.zw = 0) (hzx : wrap 16 (-q.zx) = -q.zx)
    (hch : kn.shape = ic.shape) (add post : Int → Int → Int) (bias : Buf) (bptr bv : Int) {H W : Int} {y x oc : Nat}
    (hH : ∀ i, i < kh.shape → (tapCoord c.sh c.pt c.dh y i < H ↔ tapCoord c.sh c.pt c.dh y i < ih.shape))
    (hW : ∀ j, j < kw.shape → (tapCoord c.sw c.pl c.dw x j < W ↔ tapCoord c.sw c.pl c.dw x j < iw.shape))
    (hoc : (oc : Int) < kn.shape) (B1 B2 : Int)
    (hB1 : ∀ is js, InShape tin.shape is → InShape tw.shape js → |src.get (tin.addr is) * wts.get (tw.addr js)| ≤ B1)
    (hB2 : ∀ js, InShape tw.shape js → |-q.zx * wts.get (tw.addr js)| ≤ B2)
    (hfit : ((kh.shape.toNat * kw.shape.toNat : Nat) : Int) * (B1 + B2) ≤ hi q.aw) (hb : bias.rd (bptr + oc) = some bv)
    (hadd : ∀ a, |a| ≤ hi q.aw → InRange q.aw (add bv a)) :
    dwBias q add post src wts bias bptr c (inPrv tin ih iw ic H W) (wtPrv tw kh kw kc kn) y x oc =
      some (post oc (add bv (convSum kh.shape kw.shape 1 (padded ih.shape iw.shape 0 fun r p _ => inElem src tin r p oc - q.zx)
        (fun i j _ => wtElem wts tw oc i j 0) c.sh c.sw c.pt c.pl c.dh c.dw y x))) := by
  obtain ⟨t, b, l, r, h⟩ := convWin_isWin T hH hW
  unfold dwBias
  simp only []
  generalize hv : convWin c (inPrv tin ih iw ic H W) (wtPrv tw kh kw kc kn) y x = v at h
  have t0 := h.t0; have b0 := h.b0; have l0 := h.l0; have r0 := h.r0
  have hr := h.rows; have hcl := h.clmns
  have p1 := T.vw.shape_pos kh (by simp [T.dk])
  have p2 := T.vw.shape_pos kw (by simp [T.dk])
  have p3 := T.vw.shape_pos kc (by simp [T.dk])
  have p4 := T.vw.shape_pos kn (by simp [T.dk])
  have q1 := T.vi.shape_pos ih (by simp [T.di])
  have q2 := T.vi.shape_pos iw (by simp [T.di])
  have sIn : InShape tin.shape [0, 0, 0] := by
    simp only [Tensor.shape, T.di, List.map_cons, List.map_nil, InShape]; exact ⟨by omega, by omega, by omega, trivial⟩
  have sWt : InShape tw.shape [0, 0, 0, 0] := by
    simp only [Tensor.shape, T.dk, List.map_cons, List.map_nil, InShape]
    exact ⟨by omega, by omega, by omega, by omega, trivial⟩
  have nB1 : 0 ≤ B1 := le_trans (abs_nonneg _) (hB1 _ _ sIn sWt)
  have nB2 : 0 ≤ B2 := le_trans (abs_nonneg _) (hB2 _ sWt)
  have insI : ∀ i j : Nat, i < v.rows.toNat → j < v.clmns.toNat →
      InShape tin.shape [tapCoord c.sh c.pt c.dh y (t + i), tapCoord c.sw c.pl c.dw x (l + j), (oc : Int)] := by
    intro i j hi hj
    simp only [Tensor.shape, T.di, List.map_cons, List.map_nil, InShape]
    exact ⟨(h.rowIn (t + i) (by omega) (by omega)).1 (by omega), (h.colIn (l + j) (by omega) (by omega)).1 (by omega), by omega, trivial⟩
  have insW : ∀ i j : Nat, i < v.rows.toNat → j < v.clmns.toNat → InShape tw.shape [t + i, l + j, 0, (oc : Int)] := by
    intro i j hi hj
    simp only [Tensor.shape, T.dk, List.map_cons, List.map_nil, InShape]
    exact ⟨by omega, by omega, by omega, by omega, trivial⟩
  have rdI : ∀ i j : Nat, i < v.rows.toNat → j < v.clmns.toNat →
      src.rd (v.inPtr + oc + ih.stride * c.dh * i + iw.stride * c.dw * j) =
        some (inElem src tin (tapCoord c.sh c.pt c.dh y (t + i)) (tapCoord c.sw c.pl c.dw x (l + j)) oc) := by
    intro i j hi hj
    have := h.inTap T (ch := oc) hi hj (by omega)
    rwa [Int.one_mul] at this
  have rdW : ∀ i j : Nat, i < v.rows.toNat → j < v.clmns.toNat →
      wts.rd (v.wPtr + kn.stride * oc + kh.stride * i + kw.stride * j) = some (wtElem wts tw oc (t + i) (l + j) 0) := by
    intro i j hi hj
    have := h.wtTap T (ch := 0) hi hj (by omega) hoc
    simpa using this
  have A1 := dotprod2D_adds (aw := q.aw) (src := src) (wts := wts) (p := v.inPtr + oc) (q := v.wPtr + kn.stride * oc) (W := v.clmns)
    (H := v.rows) (ics := iw.stride * c.dw) (irs := ih.stride * c.dh) (kcs := kw.stride) (krs := kh.stride)
    (fun i j => inElem src tin (tapCoord c.sh c.pt c.dh y (t + i)) (tapCoord c.sw c.pl c.dw x (l + j)) oc)
    (fun i j => wtElem wts tw oc (t + i) (l + j) 0) B1 rdI rdW
    (fun i j hi hj => hB1 _ _ (insI i j hi hj) (insW i j hi hj))
  have A2 := wAdd2D_adds (q := q) (wts := wts) (p := v.wPtr + kn.stride * oc) (W := v.clmns) (H := v.rows)
    (cs := kw.stride) (rs := kh.stride) (fun i j => wtElem wts tw oc (t + i) (l + j) 0) B2 hzx rdW
    (fun i j hi hj => hB2 _ (insW i j hi hj)) nB2
  have A3 := zpAdd_adds (q := q) (v.clmns * v.rows)
  have AA := (A1.comp A2).2 0
  have AB := (A1.comp A2).1
  have m1 := box_le (C := 1) h.le.1 h.le.2 nB1
  have m2 := box_le (C := 1) h.le.1 h.le.2 nB2
  have efit : ((kh.shape.toNat * kw.shape.toNat : Nat) : Int) * (B1 + B2) =
      (1 : Nat) * (kh.shape.toNat * (kw.shape.toNat * B1)) + (1 : Nat) * (kh.shape.toNat * (kw.shape.toNat * B2)) := by push_cast; ring
  rw [Nat.cast_one, Int.one_mul, Int.one_mul] at m1 m2 efit
  have hlo := lo_eq q.aw; have hhi := hi_eq q.aw
  have AA := AA (by omega) (by omega)
  have A3 := A3.2
  rw [hzw] at A3
  simp only [Int.mul_zero, abs_zero, Int.add_zero, Int.sub_zero] at A3
  have i0 : ∀ a, inAdd2D q src (v.inPtr + oc) a v.clmns v.rows ((inPrv tin ih iw ic H W).col * c.dw)
      ((inPrv tin ih iw ic H W).row * c.dh) = some a := by
    intro a; unfold inAdd2D; rw [if_neg (by simp [hzw])]
  simp only [i0]
  simp only [inPrv, wtPrv]
  rw [Option.bind_eq_some_iff] at AA
  obtain ⟨a1, x1, AA⟩ := AA
  simp only [x1, Option.bind_some, AA, hb, Option.map_some, Int.zero_add]
  rw [A3 _ (hadd _ (by omega)).1 (hadd _ (by omega)).2]
  have hs := h.sum T 1 (fun r p _ => inElem src tin r p oc - q.zx) (fun i j _ => wtElem wts tw oc i j 0)
  rw [Nat.cast_one] at hs
  rw [hs, Option.map_some]
  congr 3
  simp only [boxSum, Finset.sum_range_one, ← Finset.sum_add_distrib]
  apply Finset.sum_congr rfl; intro i _
  apply Finset.sum_congr rfl; intro j _
  ring

/-! ## Without a bias -/

theorem convSum_padded (kh kw n ih iw z : Int) (X W : Int → Int → Int → Int) (sh sw pt pl dh dw y x : Int) :
    convSum kh kw n (padded ih iw z X) W sh sw pt pl dh dw y x =
      convSum kh kw n (padded ih iw 0 fun r q c => X r q c - z) W sh sw pt pl dh dw y x +
        z * boxSum n.toNat kh.toNat kw.toNat fun c i j => W i j c := by
  have e : (boxSum n.toNat kh.toNat kw.toNat fun c i j => W i j c) =
      ∑ i ∈ Finset.range kh.toNat, ∑ j ∈ Finset.range kw.toNat, ∑ c ∈ Finset.range n.toNat, W i j c := by
    unfold boxSum
    rw [Finset.sum_comm]
    apply Finset.sum_congr rfl; intro i _
    rw [Finset.sum_comm]
  rw [e]
  unfold convSum
  simp only [Finset.mul_sum, ← Finset.sum_add_distrib]
  apply Finset.sum_congr rfl; intro i _
  apply Finset.sum_congr rfl; intro j _
  apply Finset.sum_congr rfl; intro k _
  unfold padded
  split <;> ring

/-- The sum over all taps, where padding has the value `z`, from sums over the clipped window and
over the whole kernel. -/
theorem IsWin.sumPad {y x t b l r : Int} {v : Win} (T : ConvT tin tw c src wts ih iw ic kh kw kc kn)
    (h : IsWin tin tw c ih iw ic kh kw kc kn y x v t b l r) (n : Nat) (z : Int) (X W : Int → Int → Int → Int) :
    convSum kh.shape kw.shape n (padded ih.shape iw.shape z X) W c.sh c.sw c.pt c.pl c.dh c.dw y x =
      (boxSum n v.rows.toNat v.clmns.toNat fun cc i j =>
        X (tapCoord c.sh c.pt c.dh y (t + i)) (tapCoord c.sw c.pl c.dw x (l + j)) cc * W (t + i) (l + j) cc) +
      z * ((boxSum n kh.shape.toNat kw.shape.toNat fun cc i j => W i j cc) -
        boxSum n v.rows.toNat v.clmns.toNat fun cc i j => W (t + i) (l + j) cc) := by
  rw [convSum_padded, h.sum T, Int.toNat_natCast, Int.mul_sub]
  have : (boxSum n v.rows.toNat v.clmns.toNat fun cc i j =>
      (X (tapCoord c.sh c.pt c.dh y (t + i)) (tapCoord c.sw c.pl c.dw x (l + j)) cc - z) * W (t + i) (l + j) cc) =
      (boxSum n v.rows.toNat v.clmns.toNat fun cc i j =>
        X (tapCoord c.sh c.pt c.dh y (t + i)) (tapCoord c.sw c.pl c.dw x (l + j)) cc * W (t + i) (l + j) cc) -
      z * boxSum n v.rows.toNat v.clmns.toNat fun cc i j => W (t + i) (l + j) cc := by
    simp only [boxSum, Finset.mul_sum, ← Finset.sum_sub_distrib]
    apply Finset.sum_congr rfl; intro i _
    apply Finset.sum_congr rfl; intro j _
    apply Finset.sum_congr rfl; intro k _
    ring
  rw [this]
  ring

theorem IsWin.whole {y x t b l r : Int} {v : Win} (h : IsWin tin tw c ih iw ic kh kw kc kn y x v t b l r)
    (p1 : 1 ≤ kh.shape) (p2 : 1 ≤ kw.shape) (hr : 0 ≤ v.rows) (e : v.rows * v.clmns = kh.shape * kw.shape) :
    v.rows = kh.shape ∧ v.clmns = kw.shape ∧ t = 0 ∧ l = 0 := by
  have t0 := h.t0; have b0 := h.b0; have l0 := h.l0; have r0 := h.r0
  have h1 := h.rows; have h2 := h.clmns
  have cpos : 0 < v.clmns := by
    by_contra hc
    have : v.rows * v.clmns ≤ 0 := Int.mul_nonpos_of_nonneg_of_nonpos hr (by omega)
    have : 0 < kh.shape * kw.shape := Int.mul_pos (by omega) (by omega)
    omega
  have hle : v.rows * v.clmns ≤ v.rows * kw.shape := Int.mul_le_mul_of_nonneg_left (by omega) hr
  have hrk : v.rows = kh.shape := by
    by_contra hne
    have : v.rows * kw.shape < kh.shape * kw.shape := Int.mul_lt_mul_of_pos_right (by omega) (by omega)
    omega
  have hck : v.clmns = kw.shape := by
    rw [hrk] at e
    exact Int.eq_of_mul_eq_mul_left (by omega) e
  omega

theorem subFx_neg {aw : Nat} {a : Int} (h : |a| ≤ hi aw) : subFx aw 0 a = -a := by
  have hlo := lo_eq aw; have hhi := hi_eq aw
  have := abs_le.1 h
  rw [subFx_eq (by constructor <;> omega) (by constructor <;> omega), clamp_of_inRange (by constructor <;> omega)]
  ring

/-- Without a bias (weights zero point 0): the exact sum, padding counting with the input zero point. -/
theorem convNoBias_run (T : ConvT tin tw c src wts ih iw ic kh kw kc kn) (q : ConvQ) (hzw : q.zw = 0) (hzx : wrap 16 (-q.zx) = -q.zx)
    (hch : ic.shape = kc.shape) {H W : Int} {y x oc : Nat}
    (hH : ∀ i, i < kh.shape → (tapCoord c.sh c.pt c.dh y i < H ↔ tapCoord c.sh c.pt c.dh y i < ih.shape))
    (hW : ∀ j, j < kw.shape → (tapCoord c.sw c.pl c.dw x j < W ↔ tapCoord c.sw c.pl c.dw x j < iw.shape))
    (hrow : ∃ i, 0 ≤ i ∧ i < kh.shape ∧ 0 ≤ tapCoord c.sh c.pt c.dh y i ∧ tapCoord c.sh c.pt c.dh y i < ih.shape)
    (hoc : (oc : Int) < kn.shape) (B1 B2 : Int)
    (hB1 : ∀ is js, InShape tin.shape is → InShape tw.shape js → |src.get (tin.addr is) * wts.get (tw.addr js)| ≤ B1)
    (hB2 : ∀ js, InShape tw.shape js → |-q.zx * wts.get (tw.addr js)| ≤ B2)
    (hfit : taps kh kw ic * (B1 + 2 * B2) ≤ hi q.aw) :
    convNoBias q src wts c (inPrv tin ih iw ic H W) (wtPrv tw kh kw kc kn) y x oc =
      some (convSum kh.shape kw.shape ic.shape (padded ih.shape iw.shape q.zx (inElem src tin))
        (wtElem wts tw oc) c.sh c.sw c.pt c.pl c.dh c.dw y x) := by
  obtain ⟨t, b, l, r, h⟩ := convWin_isWin T hH hW
  unfold convNoBias convCore
  simp only []
  generalize hv : convWin c (inPrv tin ih iw ic H W) (wtPrv tw kh kw kc kn) y x = v at h
  have t0 := h.t0; have b0 := h.b0; have l0 := h.l0; have r0 := h.r0
  have hr := h.rows; have hcl := h.clmns
  have p1 := T.vw.shape_pos kh (by simp [T.dk])
  have p2 := T.vw.shape_pos kw (by simp [T.dk])
  have p3 := T.vw.shape_pos kc (by simp [T.dk])
  have p4 := T.vw.shape_pos kn (by simp [T.dk])
  have q1 := T.vi.shape_pos ih (by simp [T.di])
  have q2 := T.vi.shape_pos iw (by simp [T.di])
  have e3 : ((ic.shape.toNat : Nat) : Int) = ic.shape := by omega
  have rpos : 0 < v.rows := by
    obtain ⟨i, i0, i1, hi⟩ := hrow
    have := (h.rowIn i i0 i1).2 hi
    omega
  have sIn : InShape tin.shape [0, 0, 0] := by
    simp only [Tensor.shape, T.di, List.map_cons, List.map_nil, InShape]; exact ⟨by omega, by omega, by omega, trivial⟩
  have sWt : InShape tw.shape [0, 0, 0, 0] := by
    simp only [Tensor.shape, T.dk, List.map_cons, List.map_nil, InShape]
    exact ⟨by omega, by omega, by omega, by omega, trivial⟩
  have nB1 : 0 ≤ B1 := le_trans (abs_nonneg _) (hB1 _ _ sIn sWt)
  have nB2 : 0 ≤ B2 := le_trans (abs_nonneg _) (hB2 _ sWt)
  have insI : ∀ cc i j : Nat, cc < ic.shape.toNat → i < v.rows.toNat → j < v.clmns.toNat →
      InShape tin.shape [tapCoord c.sh c.pt c.dh y (t + i), tapCoord c.sw c.pl c.dw x (l + j), (cc : Int)] := by
    intro cc i j hc hi hj
    simp only [Tensor.shape, T.di, List.map_cons, List.map_nil, InShape]
    exact ⟨(h.rowIn (t + i) (by omega) (by omega)).1 (by omega), (h.colIn (l + j) (by omega) (by omega)).1 (by omega), by omega, trivial⟩
  have insW : ∀ cc i j : Nat, cc < ic.shape.toNat → i < v.rows.toNat → j < v.clmns.toNat →
      InShape tw.shape [t + i, l + j, (cc : Int), (oc : Int)] := by
    intro cc i j hc hi hj
    simp only [Tensor.shape, T.dk, List.map_cons, List.map_nil, InShape]
    exact ⟨by omega, by omega, by omega, by omega, trivial⟩
  have A1 := dotprod3D_adds (aw := q.aw) (src := src) (wts := wts) (p := v.inPtr) (q := v.wPtr + kn.stride * oc) (W := v.clmns)
    (H := v.rows) (C := ic.shape) (ics := iw.stride * c.dw) (irs := ih.stride * c.dh) (ichs := 1) (kcs := kw.stride) (krs := kh.stride)
    (kchs := kc.stride) rpos
    (fun cc i j => inElem src tin (tapCoord c.sh c.pt c.dh y (t + i)) (tapCoord c.sw c.pl c.dw x (l + j)) cc)
    (fun cc i j => wtElem wts tw oc (t + i) (l + j) cc) B1
    (fun cc i j hc hi hj => h.inTap T hi hj (by omega))
    (fun cc i j hc hi hj => h.wtTap T hi hj (by omega) hoc)
    (fun cc i j hc hi hj => hB1 _ _ (insI cc i j hc hi hj) (insW cc i j hc hi hj))
  have A2 := wAdd3D_adds (q := q) (wts := wts) (p := v.wPtr + kn.stride * oc) (W := v.clmns) (H := v.rows) (C := ic.shape)
    (cs := kw.stride) (rs := kh.stride) (chs := kc.stride) (fun cc i j => wtElem wts tw oc (t + i) (l + j) cc) B2 hzx
    (fun cc i j hc hi hj => h.wtTap T hi hj (by omega) hoc)
    (fun cc i j hc hi hj => hB2 _ (insW cc i j hc hi hj)) nB2
  have A3 := wAdd3D_adds (q := q) (wts := wts) (p := tw.base + kn.stride * oc) (W := kw.shape) (H := kh.shape) (C := ic.shape)
    (cs := kw.stride) (rs := kh.stride) (chs := kc.stride) (fun cc i j => wtElem wts tw oc i j cc) B2 hzx
    (fun cc i j hc hi hj => wt_full T hi hj (by omega) hoc)
    (fun cc i j hc hi hj => hB2 _ (by
      simp only [Tensor.shape, T.dk, List.map_cons, List.map_nil, InShape]
      exact ⟨by omega, by omega, by omega, by omega, trivial⟩)) nB2
  have m1 := box_le (C := ic.shape.toNat) h.le.1 h.le.2 nB1
  have m2 := box_le (C := ic.shape.toNat) h.le.1 h.le.2 nB2
  rw [taps_mul] at m1 m2 A3
  have efit : (taps kh kw ic : Int) * (B1 + 2 * B2) = taps kh kw ic * B1 + 2 * (taps kh kw ic * B2) := by ring
  have nT : 0 ≤ (taps kh kw ic : Int) * B1 := Int.mul_nonneg (by omega) nB1
  have nT2 : 0 ≤ (taps kh kw ic : Int) * B2 := Int.mul_nonneg (by omega) nB2
  have hlo := lo_eq q.aw; have hhi := hi_eq q.aw
  have A1' := A1.weaken m1
  have A2' := A2.weaken m2
  have hs := h.sumPad T ic.shape.toNat q.zx (inElem src tin) (wtElem wts tw oc)
  rw [e3] at hs
  rw [hs]
  have i0 : ∀ a, inAdd3D q src v.inPtr a v.clmns v.rows (inPrv tin ih iw ic H W).ch (inPrv tin ih iw ic H W).col
      (inPrv tin ih iw ic H W).row 1 = some a := by
    intro a; unfold inAdd3D; rw [if_neg (by simp [hzw])]
  simp only [i0]
  simp only [inPrv, wtPrv]
  have x1 := A1'.2 0 (by omega) (by omega)
  have b1 := A1'.1; have b2 := A2'.1; have b3 := A3.1
  simp only [x1, Option.bind_some, Int.zero_add]
  generalize hS : (boxSum ic.shape.toNat v.rows.toNat v.clmns.toNat fun cc i j =>
    inElem src tin (tapCoord c.sh c.pt c.dh y (t + i)) (tapCoord c.sw c.pl c.dw x (l + j)) cc * wtElem wts tw oc (t + i) (l + j) cc) = S at *
  have neg2 : (boxSum ic.shape.toNat v.rows.toNat v.clmns.toNat fun cc i j => -q.zx * wtElem wts tw oc (t + i) (l + j) cc) =
      -(q.zx * boxSum ic.shape.toNat v.rows.toNat v.clmns.toNat fun cc i j => wtElem wts tw oc (t + i) (l + j) cc) := by
    simp only [boxSum, Finset.mul_sum, ← Finset.sum_neg_distrib, Int.neg_mul]
  have neg3 : (boxSum ic.shape.toNat kh.shape.toNat kw.shape.toNat fun cc i j => -q.zx * wtElem wts tw oc i j cc) =
      -(q.zx * boxSum ic.shape.toNat kh.shape.toNat kw.shape.toNat fun cc i j => wtElem wts tw oc i j cc) := by
    simp only [boxSum, Finset.mul_sum, ← Finset.sum_neg_distrib, Int.neg_mul]
  rw [neg2] at b2 A2'
  rw [neg3] at b3 A3
  rw [Int.mul_sub]
  by_cases hw : v.rows * v.clmns = kh.shape * kw.shape
  swap
  · simp only [ne_eq, hw, not_false_eq_true, if_true]
    generalize q.zx * (boxSum ic.shape.toNat v.rows.toNat v.clmns.toNat fun cc i j => wtElem wts tw oc (t + i) (l + j) cc) = V at *
    generalize q.zx * (boxSum ic.shape.toNat kh.shape.toNat kw.shape.toNat fun cc i j => wtElem wts tw oc i j cc) = F at *
    have c1 := abs_le.1 b1; have c2 := abs_le.1 b2; have c3 := abs_le.1 b3
    rw [subFx_neg (abs_le.2 ⟨by omega, by omega⟩)]
    have z3 := A3.2 (-S) (by omega) (by omega)
    beta_reduce at z3
    have z2 := A2'.2 (S + F) (by omega) (by omega)
    beta_reduce at z2
    rw [z3, Option.bind_some, subFx_neg (abs_le.2 ⟨by omega, by omega⟩), show -(-S + -F) = S + F by ring,
      z2, Option.bind_some, subFx_neg (abs_le.2 ⟨by omega, by omega⟩)]
    have A4 := (zpAdd_adds (q := q) (kh.shape * kw.shape - v.clmns * v.rows)).2
    rw [hzw] at A4
    simp only [Int.mul_zero, abs_zero, Int.add_zero, Int.sub_zero] at A4
    rw [A4 _ (by omega) (by omega), Option.map_some, subFx_neg (abs_le.2 ⟨by omega, by omega⟩)]
    congr 1; ring
  · simp only [ne_eq, hw, not_true_eq_false, if_false]
    obtain ⟨w1, w2, w3, w4⟩ := h.whole p1 p2 (by omega) hw
    subst w3 w4
    rw [w1, w2]
    simp only [Int.zero_add, Int.sub_self, Int.add_zero]

theorem convWin_nonneg (T : ConvT tin tw c src wts ih iw ic kh kw kc kn) {H W y x : Int} (hH0 : 0 ≤ H) (hW0 : 0 ≤ W)
    (h1 : 0 ≤ tapCoord c.sh c.pt c.dh y (kh.shape - 1)) (h2 : tapCoord c.sh c.pt c.dh y 0 < H)
    (h3 : 0 ≤ tapCoord c.sw c.pl c.dw x (kw.shape - 1)) (h4 : tapCoord c.sw c.pl c.dw x 0 < W) :
    0 ≤ (convWin c (inPrv tin ih iw ic H W) (wtPrv tw kh kw kc kn) y x).rows ∧
    0 ≤ (convWin c (inPrv tin ih iw ic H W) (wtPrv tw kh kw kc kn) y x).clmns := by
  have p1 := T.vw.shape_pos kh (by simp [T.dk])
  have p2 := T.vw.shape_pos kw (by simp [T.dk])
  have a1 := clip_nonneg H kh.shape c.sh c.pt c.dh y (by omega) T.dh hH0 h1 h2
  have a2 := clip_nonneg W kw.shape c.sw c.pl c.dw x (by omega) T.dw hW0 h3 h4
  simp only [convWin, inPrv, wtPrv]
  by_cases hd : c.dh = 1 ∧ c.dw = 1
  · rw [hd.1, ceilDiv_one, ceilDiv_one] at a1
    rw [hd.2, ceilDiv_one, ceilDiv_one] at a2
    simp only [validArea, if_pos hd]
    simp only [Int.mul_one, Int.sub_add_cancel] at a1 a2
    omega
  · simp only [validArea, if_neg hd]
    omega

/-- Depthwise, without a bias: the exact sum, padding counting with the input zero point. -/
theorem dwNoBias_run (T : ConvT tin tw c src wts ih iw ic kh kw kc kn) (q : ConvQ)
    (hzx : wrap 16 (-q.zx) = -q.zx) (hzw : wrap 16 (-q.zw) = -q.zw)
    (hch : kn.shape = ic.shape) {H W : Int} {y x oc : Nat}
    (hH : ∀ i, i < kh.shape → (tapCoord c.sh c.pt c.dh y i < H ↔ tapCoord c.sh c.pt c.dh y i < ih.shape))
    (hW : ∀ j, j < kw.shape → (tapCoord c.sw c.pl c.dw x j < W ↔ tapCoord c.sw c.pl c.dw x j < iw.shape))
    (hH0 : 0 ≤ H) (hW0 : 0 ≤ W)
    (h1 : 0 ≤ tapCoord c.sh c.pt c.dh y (kh.shape - 1)) (h2 : tapCoord c.sh c.pt c.dh y 0 < ih.shape)
    (h3 : 0 ≤ tapCoord c.sw c.pl c.dw x (kw.shape - 1)) (h4 : tapCoord c.sw c.pl c.dw x 0 < iw.shape)
    (hoc : (oc : Int) < kn.shape) (B1 B2 B3 : Int)
    (hB1 : ∀ is js, InShape tin.shape is → InShape tw.shape js → |src.get (tin.addr is) * wts.get (tw.addr js)| ≤ B1)
    (hB2 : ∀ js, InShape tw.shape js → |-q.zx * wts.get (tw.addr js)| ≤ B2)
    (hB3 : ∀ is, InShape tin.shape is → |-q.zw * src.get (tin.addr is)| ≤ B3)
    (hfit : ((kh.shape.toNat * kw.shape.toNat : Nat) : Int) * (B1 + 2 * B2 + B3 + |q.zx * q.zw|) ≤ hi q.aw) :
    dwNoBias q src wts c (inPrv tin ih iw ic H W) (wtPrv tw kh kw kc kn) y x oc =
      some (convSum kh.shape kw.shape 1 (padded ih.shape iw.shape q.zx fun r p _ => inElem src tin r p oc)
        (fun i j _ => wtElem wts tw oc i j 0 - q.zw) c.sh c.sw c.pt c.pl c.dh c.dw y x) := by
  have p1 := T.vw.shape_pos kh (by simp [T.dk])
  have p2 := T.vw.shape_pos kw (by simp [T.dk])
  have p3 := T.vw.shape_pos kc (by simp [T.dk])
  have p4 := T.vw.shape_pos kn (by simp [T.dk])
  have q1 := T.vi.shape_pos ih (by simp [T.di])
  have q2 := T.vi.shape_pos iw (by simp [T.di])
  obtain ⟨t, b, l, r, h⟩ := convWin_isWin T hH hW
  obtain ⟨rn, cn⟩ := convWin_nonneg (tin := tin) (tw := tw) (H := H) (W := W) T hH0 hW0 h1 ((hH 0 (by omega)).2 h2) h3 ((hW 0 (by omega)).2 h4)
  unfold dwNoBias
  simp only []
  generalize hv : convWin c (inPrv tin ih iw ic H W) (wtPrv tw kh kw kc kn) y x = v at h rn cn
  have t0 := h.t0; have b0 := h.b0; have l0 := h.l0; have r0 := h.r0
  have hr := h.rows; have hcl := h.clmns
  have sIn : InShape tin.shape [0, 0, 0] := by
    simp only [Tensor.shape, T.di, List.map_cons, List.map_nil, InShape]; exact ⟨by omega, by omega, by omega, trivial⟩
  have sWt : InShape tw.shape [0, 0, 0, 0] := by
    simp only [Tensor.shape, T.dk, List.map_cons, List.map_nil, InShape]
    exact ⟨by omega, by omega, by omega, by omega, trivial⟩
  have nB1 : 0 ≤ B1 := le_trans (abs_nonneg _) (hB1 _ _ sIn sWt)
  have nB2 : 0 ≤ B2 := le_trans (abs_nonneg _) (hB2 _ sWt)
  have nB3 : 0 ≤ B3 := le_trans (abs_nonneg _) (hB3 _ sIn)
  have insI : ∀ i j : Nat, i < v.rows.toNat → j < v.clmns.toNat →
      InShape tin.shape [tapCoord c.sh c.pt c.dh y (t + i), tapCoord c.sw c.pl c.dw x (l + j), (oc : Int)] := by
    intro i j hi hj
    simp only [Tensor.shape, T.di, List.map_cons, List.map_nil, InShape]
    exact ⟨(h.rowIn (t + i) (by omega) (by omega)).1 (by omega), (h.colIn (l + j) (by omega) (by omega)).1 (by omega), by omega, trivial⟩
  have insW : ∀ i j : Nat, i < v.rows.toNat → j < v.clmns.toNat → InShape tw.shape [t + i, l + j, 0, (oc : Int)] := by
    intro i j hi hj
    simp only [Tensor.shape, T.dk, List.map_cons, List.map_nil, InShape]
    exact ⟨by omega, by omega, by omega, by omega, trivial⟩
  have rdI : ∀ i j : Nat, i < v.rows.toNat → j < v.clmns.toNat →
      src.rd (v.inPtr + oc + ih.stride * c.dh * i + iw.stride * c.dw * j) =
        some (inElem src tin (tapCoord c.sh c.pt c.dh y (t + i)) (tapCoord c.sw c.pl c.dw x (l + j)) oc) := by
    intro i j hi hj
    have := h.inTap T (ch := oc) hi hj (by omega)
    rwa [Int.one_mul] at this
  have rdW : ∀ i j : Nat, i < v.rows.toNat → j < v.clmns.toNat →
      wts.rd (v.wPtr + kn.stride * oc + kh.stride * i + kw.stride * j) = some (wtElem wts tw oc (t + i) (l + j) 0) := by
    intro i j hi hj
    have := h.wtTap T (ch := 0) hi hj (by omega) hoc
    simpa using this
  have rdF : ∀ i j : Nat, i < kh.shape.toNat → j < kw.shape.toNat →
      wts.rd (tw.base + kn.stride * oc + kh.stride * i + kw.stride * j) = some (wtElem wts tw oc i j 0) := by
    intro i j hi hj
    have := wt_full T (ch := 0) hi hj (by omega) hoc
    simpa using this
  have A1 := dotprod2D_adds (aw := q.aw) (src := src) (wts := wts) (p := v.inPtr + oc) (q := v.wPtr + kn.stride * oc) (W := v.clmns)
    (H := v.rows) (ics := iw.stride * c.dw) (irs := ih.stride * c.dh) (kcs := kw.stride) (krs := kh.stride)
    (fun i j => inElem src tin (tapCoord c.sh c.pt c.dh y (t + i)) (tapCoord c.sw c.pl c.dw x (l + j)) oc)
    (fun i j => wtElem wts tw oc (t + i) (l + j) 0) B1 rdI rdW
    (fun i j hi hj => hB1 _ _ (insI i j hi hj) (insW i j hi hj))
  have A0 := inAdd2D_adds (q := q) (src := src) (p := v.inPtr + oc) (W := v.clmns) (H := v.rows)
    (cs := iw.stride * c.dw) (rs := ih.stride * c.dh)
    (fun i j => inElem src tin (tapCoord c.sh c.pt c.dh y (t + i)) (tapCoord c.sw c.pl c.dw x (l + j)) oc) B3 hzw rdI
    (fun i j hi hj => hB3 _ (insI i j hi hj)) nB3
  have A2 := wAdd2D_adds (q := q) (wts := wts) (p := v.wPtr + kn.stride * oc) (W := v.clmns) (H := v.rows)
    (cs := kw.stride) (rs := kh.stride) (fun i j => wtElem wts tw oc (t + i) (l + j) 0) B2 hzx rdW
    (fun i j hi hj => hB2 _ (insW i j hi hj)) nB2
  have A3 := wAdd2D_adds (q := q) (wts := wts) (p := tw.base + kn.stride * oc) (W := kw.shape) (H := kh.shape)
    (cs := kw.stride) (rs := kh.stride) (fun i j => wtElem wts tw oc i j 0) B2 hzx rdF
    (fun i j hi hj => hB2 [(i : Int), (j : Int), 0, (oc : Int)] (by
      simp only [Tensor.shape, T.dk, List.map_cons, List.map_nil, InShape]
      exact ⟨by omega, by omega, by omega, by omega, trivial⟩)) nB2
  have m1 := box_le (C := 1) h.le.1 h.le.2 nB1
  have m2 := box_le (C := 1) h.le.1 h.le.2 nB2
  have m3 := box_le (C := 1) h.le.1 h.le.2 nB3
  rw [Nat.cast_one, Int.one_mul, Int.one_mul] at m1 m2 m3
  have nT1 : (0 : Int) ≤ kh.shape.toNat * (kw.shape.toNat * B1) := by positivity
  have nT2 : (0 : Int) ≤ kh.shape.toNat * (kw.shape.toNat * B2) := by positivity
  have nT3 : (0 : Int) ≤ kh.shape.toNat * (kw.shape.toNat * B3) := by positivity
  have nT4 : (0 : Int) ≤ kh.shape.toNat * (kw.shape.toNat * |q.zx * q.zw|) := by positivity
  have efit : ((kh.shape.toNat * kw.shape.toNat : Nat) : Int) * (B1 + 2 * B2 + B3 + |q.zx * q.zw|) =
      kh.shape.toNat * (kw.shape.toNat * B1) + 2 * (kh.shape.toNat * (kw.shape.toNat * B2)) +
      kh.shape.toNat * (kw.shape.toNat * B3) + kh.shape.toNat * (kw.shape.toNat * |q.zx * q.zw|) := by push_cast; ring
  have hlo := lo_eq q.aw; have hhi := hi_eq q.aw
  have A1' := A1.weaken m1
  have A2' := A2.weaken m2
  have A0' := A0.weaken m3
  have hs := h.sumPad T 1 q.zx (fun r p _ => inElem src tin r p oc) (fun i j _ => wtElem wts tw oc i j 0 - q.zw)
  rw [Nat.cast_one] at hs
  rw [hs]
  simp only [boxSum, Finset.sum_range_one]
  simp only [inPrv, wtPrv]
  have x1 := A1'.2 0 (by omega) (by omega)
  have b1 := A1'.1; have b2 := A2'.1; have b3 := A3.1; have b0' := A0'.1
  have n2 : (∑ i ∈ Finset.range v.rows.toNat, ∑ j ∈ Finset.range v.clmns.toNat, -q.zx * wtElem wts tw oc (t + i) (l + j) 0) =
      -(q.zx * ∑ i ∈ Finset.range v.rows.toNat, ∑ j ∈ Finset.range v.clmns.toNat, wtElem wts tw oc (t + i) (l + j) 0) := by
    simp only [Finset.mul_sum, ← Finset.sum_neg_distrib, Int.neg_mul]
  have n3 : (∑ i ∈ Finset.range kh.shape.toNat, ∑ j ∈ Finset.range kw.shape.toNat, -q.zx * wtElem wts tw oc i j 0) =
      -(q.zx * ∑ i ∈ Finset.range kh.shape.toNat, ∑ j ∈ Finset.range kw.shape.toNat, wtElem wts tw oc i j 0) := by
    simp only [Finset.mul_sum, ← Finset.sum_neg_distrib, Int.neg_mul]
  have s1 : (∑ i ∈ Finset.range v.rows.toNat, ∑ j ∈ Finset.range v.clmns.toNat,
        inElem src tin (tapCoord c.sh c.pt c.dh y (t + i)) (tapCoord c.sw c.pl c.dw x (l + j)) oc * (wtElem wts tw oc (t + i) (l + j) 0 - q.zw)) =
      (∑ i ∈ Finset.range v.rows.toNat, ∑ j ∈ Finset.range v.clmns.toNat,
        inElem src tin (tapCoord c.sh c.pt c.dh y (t + i)) (tapCoord c.sw c.pl c.dw x (l + j)) oc * wtElem wts tw oc (t + i) (l + j) 0) +
      ∑ i ∈ Finset.range v.rows.toNat, ∑ j ∈ Finset.range v.clmns.toNat,
        -q.zw * inElem src tin (tapCoord c.sh c.pt c.dh y (t + i)) (tapCoord c.sw c.pl c.dw x (l + j)) oc := by
    simp only [← Finset.sum_add_distrib]
    apply Finset.sum_congr rfl; intro i _
    apply Finset.sum_congr rfl; intro j _
    ring
  have s2 : (∑ i ∈ Finset.range v.rows.toNat, ∑ j ∈ Finset.range v.clmns.toNat, (wtElem wts tw oc (t + i) (l + j) 0 - q.zw)) =
      (∑ i ∈ Finset.range v.rows.toNat, ∑ j ∈ Finset.range v.clmns.toNat, wtElem wts tw oc (t + i) (l + j) 0) - v.rows * v.clmns * q.zw := by
    simp only [Finset.sum_sub_distrib, Finset.sum_const, Finset.card_range, nsmul_eq_mul]
    rw [show ((v.rows.toNat : Nat) : Int) = v.rows by omega, show ((v.clmns.toNat : Nat) : Int) = v.clmns by omega]
    ring
  have s3 : (∑ i ∈ Finset.range kh.shape.toNat, ∑ j ∈ Finset.range kw.shape.toNat, (wtElem wts tw oc i j ((0 : Nat) : Int) - q.zw)) =
      (∑ i ∈ Finset.range kh.shape.toNat, ∑ j ∈ Finset.range kw.shape.toNat, wtElem wts tw oc i j 0) - kh.shape * kw.shape * q.zw := by
    simp only [Finset.sum_sub_distrib, Finset.sum_const, Finset.card_range, nsmul_eq_mul]
    rw [show ((kh.shape.toNat : Nat) : Int) = kh.shape by omega, show ((kw.shape.toNat : Nat) : Int) = kw.shape by omega]
    push_cast
    ring
  simp only [Nat.cast_zero] at s3
  rw [n2] at b2 A2'
  rw [n3] at b3 A3
  rw [s1, s2, s3]
  simp only [x1, Option.bind_some, Int.zero_add]
  generalize (∑ i ∈ Finset.range v.rows.toNat, ∑ j ∈ Finset.range v.clmns.toNat,
        inElem src tin (tapCoord c.sh c.pt c.dh y (t + i)) (tapCoord c.sw c.pl c.dw x (l + j)) oc * wtElem wts tw oc (t + i) (l + j) 0) = S at *
  generalize (∑ i ∈ Finset.range v.rows.toNat, ∑ j ∈ Finset.range v.clmns.toNat,
        -q.zw * inElem src tin (tapCoord c.sh c.pt c.dh y (t + i)) (tapCoord c.sw c.pl c.dw x (l + j)) oc) = Z at *
  have c1 := abs_le.1 b1; have c2 := abs_le.1 b2; have c3 := abs_le.1 b3; have c0 := abs_le.1 b0'
  have z0 := A0'.2 S (by omega) (by omega)
  beta_reduce at z0
  rw [z0, Option.bind_some]
  by_cases hw : v.rows * v.clmns = kh.shape * kw.shape
  swap
  · simp only [ne_eq, hw, not_false_eq_true, if_true]
    generalize (∑ i ∈ Finset.range v.rows.toNat, ∑ j ∈ Finset.range v.clmns.toNat, wtElem wts tw oc (t + i) (l + j) 0) = V0 at *
    generalize (∑ i ∈ Finset.range kh.shape.toNat, ∑ j ∈ Finset.range kw.shape.toNat, wtElem wts tw oc i j 0) = F0 at *
    generalize hV : q.zx * V0 = V at *
    generalize hF : q.zx * F0 = F at *
    rw [subFx_neg (abs_le.2 ⟨by omega, by omega⟩)]
    have z3 := A3.2 (-(S + Z)) (by omega) (by omega)
    beta_reduce at z3
    have z2 := A2'.2 (S + Z + F) (by omega) (by omega)
    beta_reduce at z2
    rw [z3, Option.bind_some, subFx_neg (abs_le.2 ⟨by omega, by omega⟩), show -(-(S + Z) + -F) = S + Z + F by ring,
      z2, Option.bind_some, subFx_neg (abs_le.2 ⟨by omega, by omega⟩)]
    have A4 := zpAdd_adds (q := q) (kh.shape * kw.shape - v.clmns * v.rows)
    have rc0 : 0 ≤ v.clmns * v.rows := Int.mul_nonneg cn rn
    have rcle : v.clmns * v.rows ≤ kh.shape * kw.shape := by
      have a1 : v.clmns * v.rows ≤ kw.shape * v.rows := Int.mul_le_mul_of_nonneg_right (by omega) rn
      have a2 : kw.shape * v.rows ≤ kw.shape * kh.shape := Int.mul_le_mul_of_nonneg_left (by omega) (by omega)
      rw [Int.mul_comm kh.shape]; omega
    have en : (((kh.shape * kw.shape - v.clmns * v.rows).toNat : Nat) : Int) = kh.shape * kw.shape - v.clmns * v.rows := by omega
    rw [en] at A4
    have mz : (kh.shape * kw.shape - v.clmns * v.rows) * |q.zx * q.zw| ≤ kh.shape.toNat * (kw.shape.toNat * |q.zx * q.zw|) := by
      rw [show (((kh.shape.toNat : Nat) : Int)) = kh.shape by omega, show (((kw.shape.toNat : Nat) : Int)) = kw.shape by omega, ← Int.mul_assoc]
      exact Int.mul_le_mul_of_nonneg_right (by omega) (abs_nonneg _)
    have A4' := A4.weaken mz
    have c4 := abs_le.1 A4'.1
    have z4 := A4'.2 (-(S + Z + F + -V)) (by omega) (by omega)
    beta_reduce at z4
    rw [z4, Option.map_some, subFx_neg (abs_le.2 ⟨by omega, by omega⟩)]
    congr 1
    rw [← hV, ← hF]
    ring
  · simp only [ne_eq, hw, not_true_eq_false, if_false]
    obtain ⟨w1, w2, w3, w4⟩ := h.whole p1 p2 rn hw
    subst w3 w4
    rw [w1, w2]
    simp only [Int.zero_add, Int.sub_self, Int.mul_zero, Int.add_zero]

end Mli
