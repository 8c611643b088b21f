import Verif.Lemmas.TransposeConv
import Verif.Props.ConvRuntime
import Verif.Props.ConvSa8

/-!
# Properties of the transposed convolution kernels (C45)
-/

namespace Mli

open Spec

variable {tin tw : Tensor} {c : ConvCfg} {src wts : Buf} {ih iw ic kh kw kc kn : Dim}

/-- Tensors of a transposed convolution. -/
structure TcT (tin tw tout : Tensor) (c : ConvCfg) (src wts : Buf) (ih iw ic kh kw kc kn oh ow oc : Dim) : Prop where
  vi : tin.Placed src
  vw : tw.Placed wts
  di : tin.dims = [ih, iw, ic]
  dk : tw.dims = [kh, kw, kc, kn]
  ui : ic.stride = 1
  hch : ic.shape = kc.shape
  dout : tout.dims = [oh, ow, oc]
  uo : oc.stride = 1
  eo : oc.shape = kn.shape
  H : TcIn ih.shape kh.shape c.sh c.pt oh.shape
  W : TcIn iw.shape kw.shape c.sw c.pl ow.shape

/-- Output view. -/
def outPrv (tout : Tensor) (oh ow oc : Dim) : Prv :=
  { ptr := tout.base, width := ow.shape, height := oh.shape, ch := oc.shape, col := ow.stride, row := oh.stride }

/-- The sub-convolution `(a, b)` along the two axes. -/
def axH (c : ConvCfg) (ih kh oh : Dim) (a : Nat) : TcAxis := tcAxis ih.shape kh.shape c.sh c.pt oh.shape (ceilDiv (kh.shape - a) c.sh) a
def axW (c : ConvCfg) (iw kw ow : Dim) (b : Nat) : TcAxis := tcAxis iw.shape kw.shape c.sw c.pl ow.shape (ceilDiv (kw.shape - b) c.sw) b

section
variable {tout : Tensor} {oh ow oc : Dim} (T : TcT tin tw tout c src wts ih iw ic kh kw kc kn oh ow oc)
include T

theorem TcT.reads {a b k : Nat} (ha : (a : Int) < c.sh) (hb : (b : Int) < c.sw) (hk : (k : Int) < kn.shape) :
    Reads (tcSub c (inPrv tin ih iw ic ih.shape iw.shape) (wtPrv tw kh kw kc kn) (outPrv tout oh ow oc) a b).i
      (tcSub c (inPrv tin ih iw ic ih.shape iw.shape) (wtPrv tw kh kw kc kn) (outPrv tout oh ow oc) a b).w k src wts
      (fun r q ch => inElem src tin (r + (axH c ih kh oh a).inOff) (q + (axW c iw kw ow b).inOff) ch)
      (fun i j ch => wtElem wts tw k (kh.shape - 1 - a - c.sh * i) (kw.shape - 1 - b - c.sw * j) ch) := by
  obtain ⟨D, O⟩ := tcAxis_out T.H (off := a) (by omega) ha
  obtain ⟨D', O'⟩ := tcAxis_out T.W (off := b) (by omega) hb
  have g := (O.msize T.H (by omega) ha).2.2
  have g' := (O'.msize T.W (by omega) hb).2.2
  refine ⟨?_, ?_⟩
  · intro r q ch r0 r1 q0 q1 hc
    have e1 : (axH c ih kh oh a).inOff = max 0 D := O.ein
    have e2 : (axW c iw kw ow b).inOff = max 0 D' := O'.ein
    have e3 : (axH c ih kh oh a).inSize = min ((axH c ih kh oh a).outSize + (ceilDiv (kh.shape - a) c.sh - 1) - (axH c ih kh oh a).pad)
      (ih.shape - (axH c ih kh oh a).inOff) := O.esz
    have e4 : (axW c iw kw ow b).inSize = min ((axW c iw kw ow b).outSize + (ceilDiv (kw.shape - b) c.sw - 1) - (axW c iw kw ow b).pad)
      (iw.shape - (axW c iw kw ow b).inOff) := O'.esz
    have r1 : r < (axH c ih kh oh a).inSize := r1
    have q1 : q < (axW c iw kw ow b).inSize := q1
    have hc : (ch : Int) < ic.shape := hc
    have hs : InShape tin.shape [r + (axH c ih kh oh a).inOff, q + (axW c iw kw ow b).inOff, (ch : Int)] := by
      simp only [Tensor.shape, T.di, List.map_cons, List.map_nil, InShape]
      exact ⟨⟨by omega, by omega⟩, ⟨by omega, by omega⟩, ⟨by omega, hc⟩, trivial⟩
    have e := T.vi.rd hs rfl
    rw [inElem, ← e]
    congr 1
    show tin.base + (ih.stride * (axH c ih kh oh a).inOff + iw.stride * (axW c iw kw ow b).inOff) + ih.stride * r + iw.stride * q + ch = _
    simp only [Tensor.addr, Tensor.strides, T.di, List.map_cons, List.map_nil, offset, T.ui]
    ring
  · intro i j ch i0 i1 j0 j1 hc
    have i1 := (g i).1 i1
    have j1 := (g' j).1 j1
    have hc : (ch : Int) < ic.shape := hc
    have hch := T.hch
    have s1 := T.H.s1; have s2 := T.W.s1
    have e1 : c.sh * i = i * c.sh := by ring
    have e2 : c.sw * j = j * c.sw := by ring
    have n1 : 0 ≤ c.sh * i := Int.mul_nonneg (by omega) i0
    have n2 : 0 ≤ c.sw * j := Int.mul_nonneg (by omega) j0
    have hs : InShape tw.shape [kh.shape - 1 - a - c.sh * i, kw.shape - 1 - b - c.sw * j, (ch : Int), (k : Int)] := by
      simp only [Tensor.shape, T.dk, List.map_cons, List.map_nil, InShape]
      exact ⟨⟨by omega, by omega⟩, ⟨by omega, by omega⟩, ⟨by omega, by omega⟩, ⟨by omega, by omega⟩, trivial⟩
    have e := T.vw.rd hs rfl
    rw [wtElem, ← e]
    congr 1
    show tw.base + (kh.stride * (kh.shape - 1) + kw.stride * (kw.shape - 1)) + (-kh.stride * a + -kw.stride * b) + kn.stride * k + kc.stride * ch +
      -kh.stride * c.sh * i + -kw.stride * c.sw * j = _
    simp only [Tensor.addr, Tensor.strides, T.dk, List.map_cons, List.map_nil, offset]
    ring

/-- Bounds for the products of a sub-convolution. -/
theorem TcT.bounds {a b k : Nat} (ha : (a : Int) < c.sh) (hb : (b : Int) < c.sw) (hk : (k : Int) < kn.shape) {zx B1 B2 : Int} (n1 : 0 ≤ B1) (n2 : 0 ≤ B2)
    (hB1 : ∀ is js, InShape tin.shape is → InShape tw.shape js → |src.get (tin.addr is) * wts.get (tw.addr js)| ≤ B1)
    (hB2 : ∀ js, InShape tw.shape js → |-zx * wts.get (tw.addr js)| ≤ B2) :
    Bounds (tcSub c (inPrv tin ih iw ic ih.shape iw.shape) (wtPrv tw kh kw kc kn) (outPrv tout oh ow oc) a b).i
      (tcSub c (inPrv tin ih iw ic ih.shape iw.shape) (wtPrv tw kh kw kc kn) (outPrv tout oh ow oc) a b).w
      (fun r q ch => inElem src tin (r + (axH c ih kh oh a).inOff) (q + (axW c iw kw ow b).inOff) ch)
      (fun i j ch => wtElem wts tw k (kh.shape - 1 - a - c.sh * i) (kw.shape - 1 - b - c.sw * j) ch) zx B1 B2 := by
  obtain ⟨D, O⟩ := tcAxis_out T.H (off := a) (by omega) ha
  obtain ⟨D', O'⟩ := tcAxis_out T.W (off := b) (by omega) hb
  have g := (O.msize T.H (by omega) ha).2.2
  have g' := (O'.msize T.W (by omega) hb).2.2
  have wts_in : ∀ i j (ch : Nat), 0 ≤ i → i < ceilDiv (kh.shape - a) c.sh → 0 ≤ j → j < ceilDiv (kw.shape - b) c.sw → (ch : Int) < ic.shape →
      InShape tw.shape [kh.shape - 1 - a - c.sh * i, kw.shape - 1 - b - c.sw * j, (ch : Int), (k : Int)] := by
    intro i j ch i0 i1 j0 j1 hc
    have i1 := (g i).1 i1
    have j1 := (g' j).1 j1
    have hch := T.hch
    have s1 := T.H.s1; have s2 := T.W.s1
    have e1 : c.sh * i = i * c.sh := by ring
    have e2 : c.sw * j = j * c.sw := by ring
    have n1 : 0 ≤ c.sh * i := Int.mul_nonneg (by omega) i0
    have n2 : 0 ≤ c.sw * j := Int.mul_nonneg (by omega) j0
    simp only [Tensor.shape, T.dk, List.map_cons, List.map_nil, InShape]
    exact ⟨⟨by omega, by omega⟩, ⟨by omega, by omega⟩, ⟨by omega, by omega⟩, ⟨by omega, by omega⟩, trivial⟩
  refine ⟨n1, n2, ?_, ?_⟩
  · intro r q i j ch r0 r1 q0 q1 i0 i1 j0 j1 hc
    have e1 : (axH c ih kh oh a).inOff = max 0 D := O.ein
    have e2 : (axW c iw kw ow b).inOff = max 0 D' := O'.ein
    have e3 : (axH c ih kh oh a).inSize = min ((axH c ih kh oh a).outSize + (ceilDiv (kh.shape - a) c.sh - 1) - (axH c ih kh oh a).pad)
      (ih.shape - (axH c ih kh oh a).inOff) := O.esz
    have e4 : (axW c iw kw ow b).inSize = min ((axW c iw kw ow b).outSize + (ceilDiv (kw.shape - b) c.sw - 1) - (axW c iw kw ow b).pad)
      (iw.shape - (axW c iw kw ow b).inOff) := O'.esz
    have r1 : r < (axH c ih kh oh a).inSize := r1
    have q1 : q < (axW c iw kw ow b).inSize := q1
    have hc : (ch : Int) < ic.shape := hc
    apply hB1 _ _ _ (wts_in i j ch i0 i1 j0 j1 hc)
    simp only [Tensor.shape, T.di, List.map_cons, List.map_nil, InShape]
    exact ⟨⟨by omega, by omega⟩, ⟨by omega, by omega⟩, ⟨by omega, hc⟩, trivial⟩
  · intro i j ch i0 i1 j0 j1 hc
    exact hB2 _ (wts_in i j ch i0 i1 j0 j1 hc)

/-- Number of products. -/
theorem TcT.taps_eq : (taps kh kw ic : Int) = ic.shape * (kh.shape * kw.shape) := by
  have pi := T.vi.shape_pos
  have pw := T.vw.shape_pos
  simp only [T.di, T.dk, List.mem_cons, List.not_mem_nil, or_false, forall_eq_or_imp, forall_eq] at pi pw
  unfold taps
  push_cast
  rw [show ((kh.shape.toNat : Nat) : Int) = kh.shape by omega, show ((kw.shape.toNat : Nat) : Int) = kw.shape by omega,
    show ((ic.shape.toNat : Nat) : Int) = ic.shape by omega]

theorem TcT.taps_lt (hv : tw.Valid wts) : (taps kh kw ic : Int) < 2 ^ 31 :=
  Mli.taps_lt (c := { c with dh := 1, dw := 1 }) ⟨T.vi, T.vw, T.di, T.dk, T.ui, le_refl 1, le_refl 1⟩ hv T.hch

theorem TcT.le {a b : Nat} (ha : (a : Int) < c.sh) (hb : (b : Int) < c.sw) :
    1 ≤ ceilDiv (kh.shape - a) c.sh ∧ ceilDiv (kh.shape - a) c.sh ≤ kh.shape ∧ 1 ≤ ceilDiv (kw.shape - b) c.sw ∧
      ceilDiv (kw.shape - b) c.sw ≤ kw.shape := by
  obtain ⟨D, O⟩ := tcAxis_out T.H (off := a) (by omega) ha
  obtain ⟨D', O'⟩ := tcAxis_out T.W (off := b) (by omega) hb
  obtain ⟨m1, m2, -⟩ := O.msize T.H (by omega) ha
  obtain ⟨m3, m4, -⟩ := O'.msize T.W (by omega) hb
  exact ⟨m1, m2, m3, m4⟩

theorem TcT.sub_taps {a b : Nat} (ha : (a : Int) < c.sh) (hb : (b : Int) < c.sw) {B : Int} (hB : 0 ≤ B) :
    ((ic.shape.toNat * ((ceilDiv (kh.shape - a) c.sh).toNat * (ceilDiv (kw.shape - b) c.sw).toNat) : Nat) : Int) * B ≤ taps kh kw ic * B := by
  obtain ⟨m1, m2, m3, m4⟩ := T.le ha hb
  apply Int.mul_le_mul_of_nonneg_right _ hB
  unfold taps
  exact_mod_cast Nat.mul_le_mul_left _ (Nat.mul_le_mul (by omega) (by omega))

/-- The scatter sum is bounded by the number of products. -/
theorem TcT.sum_le {y x k : Int} (y0 : 0 ≤ y) (y1 : y < oh.shape) (x0 : 0 ≤ x) (x1 : x < ow.shape) (k0 : 0 ≤ k) (k1 : k < kn.shape) (z B : Int) (hB : 0 ≤ B)
    (hb : ∀ is js, InShape tin.shape is → InShape tw.shape js → |(src.get (tin.addr is) - z) * wts.get (tw.addr js)| ≤ B) :
    |scatterSum ih.shape iw.shape kh.shape kw.shape ic.shape (fun r q ch => inElem src tin r q ch - z) (wtElem wts tw k) c.sh c.sw c.pt c.pl y x| ≤
      taps kh kw ic * B := by
  obtain ⟨a, ha, Y, hY, rfl⟩ := tcAxis_cover T.H y0 y1
  obtain ⟨b, hb', X, hX, rfl⟩ := tcAxis_cover T.W x0 x1
  obtain ⟨D, O⟩ := tcAxis_out T.H (off := a) (by omega) ha
  obtain ⟨D', O'⟩ := tcAxis_out T.W (off := b) (by omega) hb'
  rw [← tc_convSum O T.H (by omega) ha O' T.W (by omega) hb' hY (by omega) hX (by omega)]
  obtain ⟨m1, m2, m3, m4⟩ := T.le ha hb'
  have pi := T.vi.shape_pos ic (by simp [T.di])
  have g := (O.msize T.H (by omega) ha).2.2
  have g' := (O'.msize T.W (by omega) hb').2.2
  have ein := O.ein; have ein' := O'.ein; have esz := O.esz; have esz' := O'.esz
  have hs := convSum_abs (ceilDiv (kh.shape - a) c.sh).toNat (ceilDiv (kw.shape - b) c.sw).toNat ic.shape.toNat (axH c ih kh oh a).inSize (axW c iw kw ow b).inSize
    (fun r q ch => inElem src tin (r + (axH c ih kh oh a).inOff) (q + (axW c iw kw ow b).inOff) ch - z)
    (fun i j ch => wtElem wts tw k (kh.shape - 1 - a - c.sh * i) (kw.shape - 1 - b - c.sw * j) ch)
    1 1 (axH c ih kh oh a).pad (axW c iw kw ow b).pad 1 1 Y X B hB (by
      intro i j cc r q hi hj hcc r0 r1 q0 q1
      have i1 := (g i).1 (by omega)
      have j1 := (g' j).1 (by omega)
      have hch := T.hch
      have s1 := T.H.s1; have s2 := T.W.s1
      have e1 : c.sh * i = i * c.sh := by ring
      have e2 : c.sw * j = j * c.sw := by ring
      have n1 : 0 ≤ c.sh * i := Int.mul_nonneg (by omega) (by omega)
      have n2 : 0 ≤ c.sw * j := Int.mul_nonneg (by omega) (by omega)
      have t1 : (axH c ih kh oh a).inOff = max 0 D := ein
      have t2 : (axW c iw kw ow b).inOff = max 0 D' := ein'
      have t3 : (axH c ih kh oh a).inSize ≤ ih.shape - (axH c ih kh oh a).inOff := by
        show _ ≤ _; rw [show (axH c ih kh oh a).inSize = _ from esz]; exact min_le_right _ _
      have t4 : (axW c iw kw ow b).inSize ≤ iw.shape - (axW c iw kw ow b).inOff := by
        show _ ≤ _; rw [show (axW c iw kw ow b).inSize = _ from esz']; exact min_le_right _ _
      apply hb
      · simp only [Tensor.shape, T.di, List.map_cons, List.map_nil, InShape]
        exact ⟨⟨by omega, by omega⟩, ⟨by omega, by omega⟩, ⟨by omega, by omega⟩, trivial⟩
      · simp only [Tensor.shape, T.dk, List.map_cons, List.map_nil, InShape]
        exact ⟨⟨by omega, by omega⟩, ⟨by omega, by omega⟩, ⟨by omega, by omega⟩, ⟨by omega, by omega⟩, trivial⟩)
  rw [Int.toNat_of_nonneg (by omega), Int.toNat_of_nonneg (by omega), Int.toNat_of_nonneg (by omega)] at hs
  refine hs.trans (le_trans (le_of_eq ?_) (T.sub_taps ha hb' hB))
  push_cast
  rw [Int.toNat_of_nonneg (by omega), Int.toNat_of_nonneg (by omega), Int.toNat_of_nonneg (by omega)]

/-- All outputs of a transposed convolution with bias. -/
theorem TcT.bias_all {dst bias : Buf} {bptr : Int} {bv : Int → Int} (vo : tout.Valid dst) (q : ConvQ) (post : Int → Int → Int → Int)
    (hzw : q.zw = 0) (hzx : wrap 16 (-q.zx) = -q.zx) (B1 B2 : Int) (n1 : 0 ≤ B1) (n2 : 0 ≤ B2)
    (hB1 : ∀ is js, InShape tin.shape is → InShape tw.shape js → |src.get (tin.addr is) * wts.get (tw.addr js)| ≤ B1)
    (hB2 : ∀ js, InShape tw.shape js → |-q.zx * wts.get (tw.addr js)| ≤ B2)
    (hfit : taps kh kw ic * (B1 + B2) ≤ hi q.aw)
    (hb : ∀ k : Nat, (k : Int) < kn.shape → bias.rd (bptr + k) = some (bv k)) :
    ∃ dst' val, tcRun (convBias q post src wts bias bptr) c (inPrv tin ih iw ic ih.shape iw.shape) (wtPrv tw kh kw kc kn)
        (outPrv tout oh ow oc) dst = some dst' ∧ tout.Writes val dst dst' ∧
      ∀ y x k, InShape tout.shape [y, x, k] → val [y, x, k] = post k (bv k)
        (scatterSum ih.shape iw.shape kh.shape kw.shape ic.shape (fun r q' ch => inElem src tin r q' ch - q.zx) (wtElem wts tw k)
          c.sh c.sw c.pt c.pl y x) := by
  obtain ⟨dst', h1, h2⟩ := tcRun_writes vo T.dout T.uo
    (fun is => match is with
      | [y, x, k] => post k (bv k)
        (scatterSum ih.shape iw.shape kh.shape kw.shape ic.shape (fun r q' ch => inElem src tin r q' ch - q.zx) (wtElem wts tw k)
          c.sh c.sw c.pt c.pl y x)
      | _ => 0)
    (convBias q post src wts bias bptr) c (inPrv tin ih iw ic ih.shape iw.shape) (wtPrv tw kh kw kc kn) T.H T.W
    (outPrv tout oh ow oc) (by simp only [prvHwc, T.dout, outPrv]) (by
      intro a b Y X k ha hb' hY hX hk
      have hk' : (k : Int) < kn.shape := by rw [← T.eo]; exact hk
      obtain ⟨D, O⟩ := tcAxis_out T.H (off := a) (by omega) ha
      obtain ⟨D', O'⟩ := tcAxis_out T.W (off := b) (by omega) hb'
      obtain ⟨m1, m2, m3, m4⟩ := T.le ha hb'
      have pc := T.vi.shape_pos ic (by simp [T.di])
      obtain ⟨t, t0, t1, t2, t3⟩ := O.meets T.H (by omega) ha hY (by omega)
      have tc : tapCoord 1 (axH c ih kh oh a).pad 1 Y t = Y - (axH c ih kh oh a).pad + t := by unfold tapCoord; ring
      rw [convBias_gen (T.reads ha hb' hk') q (le_refl 1) (le_refl 1) hzw hzx (by show 0 ≤ ic.shape; omega)
        (by show 0 ≤ ceilDiv (kh.shape - a) c.sh; omega) (by show 0 ≤ ceilDiv (kw.shape - b) c.sw; omega) post bias bptr (bv k)
        ⟨t, t0, t1, by show 0 ≤ tapCoord 1 (axH c ih kh oh a).pad 1 Y t; rw [tc]; exact t2,
          by show tapCoord 1 (axH c ih kh oh a).pad 1 Y t < (axH c ih kh oh a).inSize; rw [tc]; exact t3⟩
        B1 B2 (T.bounds ha hb' hk' n1 n2 hB1 hB2) (le_trans (T.sub_taps ha hb' (by omega)) hfit) (hb k hk')]
      have := tc_convSum O T.H (by omega) ha O' T.W (by omega) hb' hY (by omega) hX (by omega) ic.shape
        (fun r q' ch => inElem src tin r q' ch - q.zx) (wtElem wts tw k)
      simp only []
      exact congrArg (fun z => some (post k (bv k) z)) this)
  exact ⟨dst', _, h1, h2, fun _ _ _ _ => rfl⟩

end

theorem tcOutSize_some {n s k pb pe e : Int} (h : tcOutSize n s k pb pe = some e) :
    e = ((n - 1) * s + k - pb - pe) % 2 ^ 32 ∧ InRange 32 ((n - 1) * s + k - pb - pe) := by
  unfold tcOutSize at h
  simp only [Option.bind_eq_some_iff, Option.map_eq_some_iff] at h
  obtain ⟨a1, h1, a2, h2, a3, h3, a4, h4, a5, h5, a6, h6, rfl⟩ := h
  obtain ⟨-, rfl⟩ := ckd_eq_some.1 h1
  obtain ⟨-, rfl⟩ := ckd_eq_some.1 h2
  obtain ⟨-, rfl⟩ := ckd_eq_some.1 h3
  obtain ⟨-, rfl⟩ := ckd_eq_some.1 h4
  obtain ⟨-, rfl⟩ := ckd_eq_some.1 h5
  obtain ⟨r, rfl⟩ := ckd_eq_some.1 h6
  have e : (n - 1) * s + 1 + (k - pb - 1) + (k - pe - 1) - k + 1 = (n - 1) * s + k - pb - pe := by omega
  rw [e] at r ⊢
  exact ⟨rfl, r⟩

theorem shape_lt {t : Tensor} {b : Buf} (h : t.Valid b) {x y z : Dim} (e : t.dims = [x, y, z]) :
    x.shape < 2 ^ 31 ∧ y.shape < 2 ^ 31 := by
  have hc := h.count_le
  have p := h.shape_pos
  simp only [e, List.mem_cons, List.not_mem_nil, or_false, forall_eq_or_imp, forall_eq] at p
  obtain ⟨p1, p2, p3⟩ := p
  simp only [Tensor.shape, e, List.map_cons, List.map_nil, List.prod_cons, List.prod_nil, Nat.mul_one] at hc
  have a1 : x.shape.toNat ≤ x.shape.toNat * (y.shape.toNat * z.shape.toNat) := Nat.le_mul_of_pos_right _ (Nat.mul_pos (by omega) (by omega))
  have a2 : y.shape.toNat ≤ y.shape.toNat * (x.shape.toNat * z.shape.toNat) := Nat.le_mul_of_pos_right _ (Nat.mul_pos (by omega) (by omega))
  have e3 : y.shape.toNat * (x.shape.toNat * z.shape.toNat) = x.shape.toNat * (y.shape.toNat * z.shape.toNat) := by ring
  constructor <;> omega

/-- Set-up of an accepted transposed convolution. -/
structure TcRun (tin tw tb tout : Tensor) (c : ConvCfg) (src wts bias : Buf) (ih iw ic kh kw kc kn bn oh ow oc : Dim) : Prop where
  T : TcT tin tw tout c src wts ih iw ic kh kw kc kn oh ow oc
  db : tb.dims = [bn]
  eb : bn.shape = kn.shape
  hi : prvHwc tin = some (inPrv tin ih iw ic ih.shape iw.shape)
  hw : prvHwcn true tw = some (wtPrv tw kh kw kc kn)
  ho : prvHwc tout = some (outPrv tout oh ow oc)
  hb : ∀ k : Nat, (k : Int) < kn.shape → bias.rd (tb.base + k) = some (bias.get (tb.addr [(k : Int)]))
  outH : oh.shape = (ih.shape - 1) * c.sh + kh.shape - c.pt - c.pb
  outW : ow.shape = (iw.shape - 1) * c.sw + kw.shape - c.pl - c.pr

theorem TcRun.bias_in {tb tout : Tensor} {bias : Buf} {bn oh ow oc : Dim} (R : TcRun tin tw tb tout c src wts bias ih iw ic kh kw kc kn bn oh ow oc)
    {k : Int} (hk : 0 ≤ k ∧ k < kn.shape) : InShape tb.shape [k] := by
  simp only [Tensor.shape, R.db, List.map_cons, List.map_nil, InShape, R.eb]
  exact ⟨hk, trivial⟩

theorem tc_setup {apart : Bool} {tb tout : Tensor} {bias dst : Buf} (hchk : chkTc apart tin tw tb c tout = some .ok) (hc : c.Typed)
    (vi : tin.Valid src) (vw : tw.Valid wts) (vb : tb.Valid bias) (vo : tout.Valid dst) :
    ∃ ih iw ic kh kw kc kn bn oh ow oc, TcRun tin tw tb tout c src wts bias ih iw ic kh kw kc kn bn oh ow oc := by
  unfold chkTc at hchk
  rw [Option.bind_eq_some_iff] at hchk
  obtain ⟨s1, -, h⟩ := hchk
  split at h
  · rename_i h'; exact absurd (Option.some.inj h) h'
  unfold chkTcGeo at h
  split at h
  swap
  · cases h
  rename_i ih iw ic kh kw kc kn bn oh ow oc e1 e2 e3 e4
  split at h
  · cases h
  rename_i hsh
  split at h
  · cases h
  rename_i hin
  split at h
  · cases h
  rename_i hcfg
  rw [Option.bind_eq_some_iff] at h
  obtain ⟨eh, h1, h⟩ := h
  rw [Option.bind_eq_some_iff] at h
  obtain ⟨ew, h2, h⟩ := h
  split at h
  · cases h
  rename_i hout
  simp only [innerOne, Tensor.strides, e1, e2, e3, e4, List.map_cons, List.map_nil, Bool.not_eq_true, Bool.not_eq_false',
    Bool.and_eq_true] at hin
  simp only [List.getLast?_cons_cons, List.getLast?_singleton, beq_iff_eq] at hin
  obtain ⟨⟨⟨u1, u2⟩, u3⟩, u4⟩ := hin
  obtain ⟨a1, a2, a3⟩ := not_not.1 hsh
  obtain ⟨d1, d2, b1, b2, b3, b4, b5, b6, b7, b8⟩ := not_not.1 hcfg
  obtain ⟨o1, o2, o3⟩ := not_not.1 hout
  obtain ⟨f1, r1⟩ := tcOutSize_some h1
  obtain ⟨f2, r2⟩ := tcOutSize_some h2
  obtain ⟨l1, l2⟩ := shape_lt vo e4
  have po := vo.shape_pos
  have pi := vi.shape_pos
  simp only [e1, e4, List.mem_cons, List.not_mem_nil, or_false, forall_eq_or_imp, forall_eq] at po pi
  obtain ⟨r1a, r1b⟩ := r1
  obtain ⟨r2a, r2b⟩ := r2
  simp only [lo, Spec.hi] at r1a r1b r2a r2b
  have g1 : oh.shape = (ih.shape - 1) * c.sh + kh.shape - c.pt - c.pb := by omega
  have g2 : ow.shape = (iw.shape - 1) * c.sw + kw.shape - c.pl - c.pr := by omega
  obtain ⟨⟨t1, -⟩, ⟨t2, -⟩, ⟨t3, -⟩, ⟨t4, -⟩, ⟨t5, -⟩, ⟨t6, -⟩, -⟩ := hc
  refine ⟨ih, iw, ic, kh, kw, kc, kn, bn, oh, ow, oc, ⟨⟨vi.placed, vw.placed, e1, e2, u1, a1, e4, u4, a2, ?_, ?_⟩, e3, a3, ?_, ?_, ?_, ?_, g1, g2⟩⟩
  · exact ⟨pi.1, t3, b3, by omega, b8, po.1, by omega⟩
  · exact ⟨pi.2.1, t5, b1, by omega, b7, po.2.1, by omega⟩
  · simp only [prvHwc, e1, inPrv]
  · simp only [prvHwcn, e2, wtPrv, u2, if_true]
  · simp only [prvHwc, e4, outPrv]
  · intro k hk
    have hs : InShape tb.shape [(k : Int)] := by
      simp only [Tensor.shape, e3, List.map_cons, List.map_nil, InShape]
      exact ⟨by omega, trivial⟩
    rw [← vb.rd hs rfl]
    congr 1
    simp only [Tensor.addr, Tensor.strides, e3, List.map_cons, List.map_nil, offset, u3]
    ring

theorem chkTcFx_ok {apart : Bool} {ks : Int} {f : FxQ} {tb tout : Tensor} (h : chkTcFx ks apart f tin tw tb c tout = some .ok) :
    f.fb ≤ f.fi + f.fw ∧ f.fo ≤ f.fi + f.fw ∧ chkTc apart tin tw tb c tout = some .ok := by
  unfold chkTcFx at h
  split at h
  · cases h
  rename_i h1
  split at h
  · cases h
  rename_i h2
  rw [Option.bind_eq_some_iff] at h
  obtain ⟨s, h3, h⟩ := h
  split at h
  · rename_i h'; exact absurd (Option.some.inj h) h'
  rename_i h4
  have h4 := not_not.1 h4
  subst h4
  exact ⟨not_not.1 h1, not_not.1 h2, h3⟩

/-- What an accepted fixed-point transposed convolution computes, as long as the accumulator cannot overflow. -/
theorem krnTcFx_exact (m : Rnd) (aw : Nat) (ks : Int) (apart : Bool) (f : FxQ) (src wts bias dst : Buf)
    (tin tw tb tout : Tensor) (c : ConvCfg) (ih iw ic kh kw kn oh ow : Int) (ww wb : Nat) (hww : 1 ≤ ww)
    (A : ConvArgs tin tw tb tout c src wts bias dst 16 ww wb)
    (hchk : chkTcFx ks apart f tin tw tb c tout = some .ok)
    (si : tin.shape = [ih, iw, ic]) (sk : tw.shape = [kh, kw, ic, kn]) (so : tout.shape = [oh, ow, kn])
    (hfit : ic * (kh * kw) < 2 ^ 31 → ic * (kh * kw) * (2 ^ 15 * 2 ^ (ww - 1)) ≤ hi aw) :
    ∃ dst' val, krnTcFx m aw ks apart f src wts bias tin tw tb c tout dst = some (.ok, dst') ∧
      tout.Writes val dst dst' ∧ ic * (kh * kw) < 2 ^ 31 ∧ ∀ y x k, InShape tout.shape [y, x, k] →
        |scatterSum ih iw kh kw ic (inElem src tin) (wtElem wts tw k) c.sh c.sw c.pt c.pl y x| ≤
          ic * (kh * kw) * (2 ^ 15 * 2 ^ (ww - 1)) ∧ InShape tb.shape [k] ∧
        val [y, x, k] = castLimFx m aw f (biasFx m aw (f.fi + f.fw - f.fb) (bias.get (tb.addr [k]))
          (scatterSum ih iw kh kw ic (inElem src tin) (wtElem wts tw k) c.sh c.sw c.pt c.pl y x)) := by
  obtain ⟨f1, f2, hck⟩ := chkTcFx_ok hchk
  obtain ⟨ih', iw', ic', kh', kw', kc', kn', bn', oh', ow', oc', R⟩ := tc_setup hck A.hc A.vi A.vw A.vb A.vo
  have T := R.T
  simp only [Tensor.shape, T.di, T.dk, T.dout, List.map_cons, List.map_nil, List.cons.injEq, and_true] at si sk so
  obtain ⟨rfl, rfl, rfl⟩ := si
  obtain ⟨rfl, rfl, -, rfl⟩ := sk
  obtain ⟨rfl, rfl, -⟩ := so
  have ht := T.taps_lt A.vw
  rw [← T.taps_eq] at hfit ⊢
  have mul16 : ∀ is js, InShape tin.shape is → InShape tw.shape js → |src.get (tin.addr is) * wts.get (tw.addr js)| ≤ 2 ^ 15 * 2 ^ (ww - 1) :=
    fun is js hi hj => by simpa using abs_mul_le (a := 16) (b := ww) (by omega) hww (A.hi is hi) (A.hw js hj)
  have hB : (0 : Int) ≤ 2 ^ 15 * 2 ^ (ww - 1) := by positivity
  obtain ⟨dst', val, r1, r2, r3⟩ := T.bias_all (bv := fun k => bias.get (tb.addr [k])) A.vo { aw := aw }
    (fun _ b acc => castLimFx m aw f (biasFx m aw (f.fi + f.fw - f.fb) b acc)) rfl (show wrap 16 (-0) = -0 by decide)
    (2 ^ 15 * 2 ^ (ww - 1)) 0 hB (le_refl 0) mul16 (fun js _ => by simp) (by simpa using hfit ht) R.hb
  have ez : (fun r p k => inElem src tin r p k - (0 : Int)) = inElem src tin := by funext r p k; exact Int.sub_zero _
  refine ⟨dst', val, ?_, r2, ht, ?_⟩
  · unfold krnTcFx
    simp only [hchk, Option.bind_eq_bind, Option.bind_some, ne_eq, not_true_eq_false, if_false, R.hi, R.ho, R.hw, r1, Option.pure_def]
  · intro y x k hs
    have := r3 y x k hs
    rw [ez] at this
    simp only [Tensor.shape, T.dout, List.map_cons, List.map_nil, InShape, T.eo] at hs
    obtain ⟨⟨y0, y1⟩, ⟨x0, x1⟩, hk, -⟩ := hs
    have hS := T.sum_le y0 y1 x0 x1 hk.1 hk.2 0 _ hB (by simpa using mul16)
    rw [ez] at hS
    exact ⟨hS, R.bias_in hk, this⟩

/-- C45, 16-bit fixed point: for every accepted call, each element of the output is the sum of products over all pairs of
an input pixel and a kernel tap that meet at this output pixel, plus the bias aligned to the product's format, scaled to the output
format, rounded, saturated and limited by the built-in ReLU; no accumulation overflows.  The bias must not be shifted left by more
than 16 bits, as for `c36_conv2d_fx16_partial`. -/
theorem c45_fx16 (m : Rnd) (ks : Int) (apart : Bool) (f : FxQ) (src wts bias dst : Buf)
    (tin tw tb tout : Tensor) (c : ConvCfg) (ih iw ic kh kw kn oh ow : Int)
    (A : ConvArgs tin tw tb tout c src wts bias dst 16 16 16)
    (hchk : chkTcFx ks apart f tin tw tb c tout = some .ok)
    (si : tin.shape = [ih, iw, ic]) (sk : tw.shape = [kh, kw, ic, kn]) (so : tout.shape = [oh, ow, kn])
    (hb : f.fi + f.fw - f.fb ≤ 16) (h1 : f.relu = .one → f.fo < 30) :
    ∃ dst' val, krnTcFx m 64 ks apart f src wts bias tin tw tb c tout dst = some (.ok, dst') ∧
      tout.Writes val dst dst' ∧ ∀ y x k, InShape tout.shape [y, x, k] →
        ∃ r, Scaled m (scatterSum ih iw kh kw ic (inElem src tin) (wtElem wts tw k) c.sh c.sw c.pt c.pl y x +
            bias.get (tb.addr [k]) * 2 ^ (f.fi + f.fw - f.fb).toNat) (f.fi + f.fw - f.fo) r ∧
          NearestIn (f.relu.Admissible 16 0 1 f.fo) (clamp 16 r) (val [y, x, k]) := by
  have f1 := (chkTcFx_ok hchk).1
  obtain ⟨dst', val, r1, r2, ht, r3⟩ := krnTcFx_exact m 64 ks apart f src wts bias dst tin tw tb tout c ih iw ic kh kw kn oh ow 16 16
    (by omega) A hchk si sk so (fun ht => (show _ ≤ (2 : Int) ^ 61 by omega).trans (by decide))
  have hle : ic * (kh * kw) * (2 ^ 15 * 2 ^ (16 - 1)) ≤ 2 ^ 61 := by omega
  refine ⟨dst', val, r1, r2, fun y x k hs => ?_⟩
  obtain ⟨hS, hk, e0⟩ := r3 y x k hs
  obtain ⟨e, e1, e2⟩ := biasFx64 m (f.fi + f.fw - f.fb) (by omega) hb (A.hb [k] hk) (hS.trans hle)
  rw [e0, e]
  apply castLimFx_spec m 64 (by omega) f e1 h1
  intro _
  by_cases h64 : 64 ≤ f.fi + f.fw - f.fo
  · exact Or.inr (Or.inl h64)
  · refine Or.inr (Or.inr ?_)
    have : (2 : Int) ^ ((f.fi + f.fw - f.fo).toNat - 1) ≤ 2 ^ 62 := pow_le_pow_right₀ (by decide) (by omega)
    omega

/-- C45, 16-bit input with 8-bit weights and bias, accumulated in 32 bits; restrictions as for `c36_conv2d_fx16_fx8_partial`. -/
theorem c45_fx16_fx8 (m : Rnd) (ks : Int) (apart : Bool) (f : FxQ) (src wts bias dst : Buf)
    (tin tw tb tout : Tensor) (c : ConvCfg) (ih iw ic kh kw kn oh ow : Int)
    (A : ConvArgs tin tw tb tout c src wts bias dst 16 8 8)
    (hchk : chkTcFx ks apart f tin tw tb c tout = some .ok)
    (si : tin.shape = [ih, iw, ic]) (sk : tw.shape = [kh, kw, ic, kn]) (so : tout.shape = [oh, ow, kn])
    (ht : ic * (kh * kw) ≤ 511) (h1 : f.relu = .one → f.fo < 30)
    (hup : m = .up → f.fi + f.fw - f.fo ≤ 16 ∨ 32 ≤ f.fi + f.fw - f.fo) :
    ∃ dst' val, krnTcFx m 32 ks apart f src wts bias tin tw tb c tout dst = some (.ok, dst') ∧
      tout.Writes val dst dst' ∧ ∀ y x k, InShape tout.shape [y, x, k] →
        ∃ r, Scaled m (clamp 32 (scatterSum ih iw kh kw ic (inElem src tin) (wtElem wts tw k) c.sh c.sw c.pt c.pl y x +
            clamp 32 (bias.get (tb.addr [k]) * 2 ^ (f.fi + f.fw - f.fb).toNat))) (f.fi + f.fw - f.fo) r ∧
          NearestIn (f.relu.Admissible 16 0 1 f.fo) (clamp 16 r) (val [y, x, k]) := by
  have f1 := (chkTcFx_ok hchk).1
  have hle : ic * (kh * kw) * (2 ^ 15 * 2 ^ (8 - 1)) ≤ 2 ^ 31 - 1 := by omega
  obtain ⟨dst', val, r1, r2, -, r3⟩ := krnTcFx_exact m 32 ks apart f src wts bias dst tin tw tb tout c ih iw ic kh kw kn oh ow 8 8
    (by omega) A hchk si sk so (fun _ => hle.trans (by decide))
  refine ⟨dst', val, r1, r2, fun y x k hs => ?_⟩
  obtain ⟨hS, hk, e0⟩ := r3 y x k hs
  have hS := abs_le.1 (hS.trans hle)
  rw [e0, biasFx32 m (f.fi + f.fw - f.fb) (by omega) (A.hb [k] hk) ⟨by simp only [lo]; omega, by simp only [hi]; omega⟩]
  exact castLimFx_spec m 32 (by omega) f (clamp_inRange _ _) h1 (fun hm => (hup hm).elim (fun h => Or.inl (by omega)) (fun h => Or.inr (Or.inl (by omega))))

/-- C45, 8-bit asymmetric: the sum of `(x - x_zp) * w` over the pairs that meet at the output pixel, plus the bias, rescaled within 3/5 of
an output step and limited by the built-in ReLU.  Restrictions as for `c36_conv2d_sa8_partial`: at most 65535 products, and in the
default build the accumulator must be less than `2^23 - 2^7`. -/
theorem c45_sa8 (m : Rnd) (full : Bool) (ks : Int) (apart : Bool) (q : Sa8Q) (src wts bias dst : Buf)
    (tin tw tb tout : Tensor) (c : ConvCfg) (ih iw ic kh kw kn oh ow : Int)
    (A : ConvArgs tin tw tb tout c src wts bias dst 8 8 32)
    (tq : q.qi.Typed ∧ q.qw.Typed ∧ q.qo.Typed)
    (hck : chkTc apart tin tw tb c tout = some .ok) (hq : chkSa8 m q tin tw tb tout = some .ok) (hsp : chkTcSpec ks tw c = .ok)
    (si : tin.shape = [ih, iw, ic]) (sk : tw.shape = [kh, kw, ic, kn]) (so : tout.shape = [oh, ow, kn])
    (ht : ic * (kh * kw) ≤ 65535)
    (h6 : q.relu = .six → q.qo.zpAt 0 = 0 ∨ q.qo.fracAt 0 < 28) (h1 : q.relu = .one → q.qo.fracAt 0 < 30) :
    ∃ dst' val, krnTcSa8 m full ks apart q src wts bias tin tw tb c tout dst = some (.ok, dst') ∧
      tout.Writes val dst dst' ∧ ∀ y x k, InShape tout.shape [y, x, k] →
        ∃ b' acc, BiasFor full (bias.get (tb.addr [k])) b' ∧
          acc = clamp 32 (scatterSum ih iw kh kw ic (fun r p k => inElem src tin r p k - q.qi.zpAt 0) (wtElem wts tw k)
            c.sh c.sw c.pt c.pl y x + b') ∧
          (full = true ∨ |acc| < 2 ^ 23 - 2 ^ 7 → ∃ v : Int,
            |(v : ℚ) - limitQ (-128) 127 (q.qo.zpAt 0 + q.real k acc)| ≤ 3 / 5 ∧
            NearestIn (q.relu.Admissible 8 (q.qo.zpAt 0) (q.qo.scaleAt 0) (q.qo.fracAt 0)) v (val [y, x, k])) := by
  obtain ⟨⟨d1, d2, d3⟩, ⟨I1, I2⟩, ⟨O1, O2⟩, hWt⟩ := chkSa8_ok hq
  obtain ⟨ih', iw', ic', kh', kw', kc', kn', bn', oh', ow', oc', R⟩ := tc_setup hck A.hc A.vi A.vw A.vb A.vo
  have T := R.T
  have sk0 := sk
  simp only [Tensor.shape, T.di, T.dk, T.dout, List.map_cons, List.map_nil, List.cons.injEq, and_true] at si sk so
  obtain ⟨rfl, rfl, rfl⟩ := si
  obtain ⟨rfl, rfl, -, rfl⟩ := sk
  obtain ⟨rfl, rfl, -⟩ := so
  rw [← T.taps_eq] at ht
  have pk := T.vw.shape_pos kn' (by simp [T.dk])
  rw [sk0] at hWt
  simp only [List.getD_cons_succ, List.getD_cons_zero] at hWt
  have hzw := (hWt 0 (by omega) (by omega)).2
  have zx16 : wrap 16 (-q.qi.zpAt 0) = -q.qi.zpAt 0 := by
    apply wrap_of_inRange (by omega)
    obtain ⟨a, b⟩ := I2
    simp only [lo, hi] at a b
    constructor <;> simp only [lo, hi] <;> omega
  obtain ⟨ratio, shift, hrt, -⟩ := c46_in_to_out m (q.qi.scaleAt 0) (q.qi.fracAt 0) (q.qo.scaleAt 0) (q.qo.fracAt 0) I1
    (tq.1.scaleAt 0) O1 (tq.2.2.scaleAt 0)
  obtain ⟨dst', val, r1, r2, r3⟩ := T.bias_all (bv := fun k => bias.get (tb.addr [k])) A.vo { aw := 32, zx := q.qi.zpAt 0, zw := q.qw.zpAt 0 }
    (fun oc b acc => castLimSa8 m full q (ratio, shift) oc (biasS8 full b acc)) hzw zx16 (2 ^ 14) (2 ^ 14) (by decide) (by decide)
    (fun is js hi hj => dot8_le (A.hi is hi) (A.hw js hj))
    (fun js hj => by simpa [neg_mul, abs_neg] using dot8_le I2 (A.hw js hj)) (by simp only [hi]; omega) R.hb
  refine ⟨dst', val, ?_, r2, fun y x k hs => ?_⟩
  · unfold krnTcSa8
    simp only [hck, hq, hrt, hsp, Option.bind_eq_bind, Option.bind_some, ne_eq, not_true_eq_false, if_false, R.hi, R.ho, R.hw, r1,
      Option.pure_def]
  · have e0 := r3 y x k hs
    simp only [Tensor.shape, T.dout, List.map_cons, List.map_nil, InShape, T.eo] at hs
    obtain ⟨⟨y0, y1⟩, ⟨x0, x1⟩, hk, -⟩ := hs
    have hS := T.sum_le y0 y1 x0 x1 hk.1 hk.2 (q.qi.zpAt 0) (2 ^ 15) (by decide)
      (fun is js h1 h2 => zp_mul_le (A.hi is h1) I2 (A.hw js h2))
    have hS := abs_le.1 (hS.trans (show (taps kh' kw' ic' : Int) * 2 ^ 15 ≤ 2 ^ 31 - 1 by omega))
    obtain ⟨b', hb1, hb2⟩ := biasFor full (A.hb [k] (R.bias_in hk)) (acc := scatterSum ih'.shape iw'.shape kh'.shape kw'.shape ic'.shape
      (fun r p k => inElem src tin r p k - q.qi.zpAt 0) (wtElem wts tw k) c.sh c.sw c.pt c.pl y x)
      ⟨by simp only [lo]; omega, by simp only [hi]; omega⟩
    refine ⟨b', _, hb2, rfl, fun hacc => ?_⟩
    rw [e0, hb1]
    exact castLimSa8_spec m full q hrt ⟨I1, tq.1.scaleAt 0⟩ ⟨(hWt k hk.1 hk.2).1, tq.2.1.scaleAt k⟩ ⟨O1, tq.2.2.scaleAt 0⟩ O2 h6 h1
      (clamp_inRange _ _) hacc

/-- The size of the output of an accepted call: the input scaled by the stride, extended by the kernel, without the padding. -/
theorem c45_shape (apart : Bool) (src wts bias dst : Buf) (tin tw tb tout : Tensor) (c : ConvCfg) (wi ww wb : Nat)
    (A : ConvArgs tin tw tb tout c src wts bias dst wi ww wb) (hck : chkTc apart tin tw tb c tout = some .ok) :
    ∃ ih iw ic kh kw kn, tin.shape = [ih, iw, ic] ∧ tw.shape = [kh, kw, ic, kn] ∧ tb.shape = [kn] ∧
      tout.shape = [(ih - 1) * c.sh + kh - c.pt - c.pb, (iw - 1) * c.sw + kw - c.pl - c.pr, kn] ∧
      (1 ≤ c.sh ∧ c.sh ≤ kh) ∧ (1 ≤ c.sw ∧ c.sw ≤ kw) ∧ c.pt < kh ∧ c.pl < kw := by
  obtain ⟨ih, iw, ic, kh, kw, kc, kn, bn, oh, ow, oc, R⟩ := tc_setup hck A.hc A.vi A.vw A.vb A.vo
  have T := R.T
  refine ⟨ih.shape, iw.shape, ic.shape, kh.shape, kw.shape, kn.shape, ?_, ?_, ?_, ?_, ⟨T.H.s1, T.H.sk⟩, ⟨T.W.s1, T.W.sk⟩, T.H.pk, T.W.pk⟩
  · simp only [Tensor.shape, T.di, List.map_cons, List.map_nil]
  · simp only [Tensor.shape, T.dk, List.map_cons, List.map_nil, T.hch]
  · simp only [Tensor.shape, R.db, List.map_cons, List.map_nil, R.eb]
  · simp only [Tensor.shape, T.dout, List.map_cons, List.map_nil, T.eo, R.outH, R.outW]

/-- A fixed-point transposed convolution that reports an error leaves the output as it was; success means that the arguments were
accepted. -/
theorem c45_status_fx (m : Rnd) (aw : Nat) (ks : Int) (apart : Bool) (f : FxQ) (src wts bias : Buf) (tin tw tb : Tensor) (c : ConvCfg)
    (tout : Tensor) (dst dst' : Buf) (st : Status) (h : krnTcFx m aw ks apart f src wts bias tin tw tb c tout dst = some (st, dst')) :
    (st ≠ .ok → dst' = dst) ∧ (st = .ok → chkTcFx ks apart f tin tw tb c tout = some .ok) := by
  unfold krnTcFx at h
  simp only [Option.bind_eq_bind, Option.pure_def] at h
  rw [Option.bind_eq_some_iff] at h
  obtain ⟨s1, hs1, h⟩ := h
  split at h
  · rename_i hne
    simp only [Option.some.injEq, Prod.mk.injEq] at h
    obtain ⟨rfl, rfl⟩ := h
    exact ⟨fun _ => rfl, fun e => absurd e hne⟩
  · rename_i hne
    simp only [Option.bind_eq_some_iff, Option.some.injEq, Prod.mk.injEq] at h
    obtain ⟨_, -, _, -, _, -, _, -, rfl, -⟩ := h
    exact ⟨fun e => absurd rfl e, fun _ => by rw [hs1, not_not.1 hne]⟩

/-- The same for the 8-bit asymmetric kernel. -/
theorem c45_status_sa8 (m : Rnd) (full : Bool) (ks : Int) (apart : Bool) (q : Sa8Q) (src wts bias : Buf) (tin tw tb : Tensor) (c : ConvCfg)
    (tout : Tensor) (dst dst' : Buf) (st : Status) (h : krnTcSa8 m full ks apart q src wts bias tin tw tb c tout dst = some (st, dst')) :
    (st ≠ .ok → dst' = dst) ∧
    (st = .ok → chkTc apart tin tw tb c tout = some .ok ∧ chkSa8 m q tin tw tb tout = some .ok ∧ chkTcSpec ks tw c = .ok) := by
  unfold krnTcSa8 at h
  simp only [Option.bind_eq_bind, Option.pure_def] at h
  rw [Option.bind_eq_some_iff] at h
  obtain ⟨s1, hs1, h⟩ := h
  split at h
  · rename_i hne
    simp only [Option.some.injEq, Prod.mk.injEq] at h
    obtain ⟨rfl, rfl⟩ := h
    exact ⟨fun _ => rfl, fun e => absurd e hne⟩
  rename_i hne
  rw [Option.bind_eq_some_iff] at h
  obtain ⟨s2, hs2, h⟩ := h
  split at h
  · rename_i hne2
    simp only [Option.some.injEq, Prod.mk.injEq] at h
    obtain ⟨rfl, rfl⟩ := h
    exact ⟨fun _ => rfl, fun e => absurd e hne2⟩
  rename_i hne2
  split at h
  · rename_i hne3
    simp only [Option.some.injEq, Prod.mk.injEq] at h
    obtain ⟨rfl, rfl⟩ := h
    exact ⟨fun _ => rfl, fun e => absurd e hne3⟩
  · rename_i hne3
    simp only [Option.bind_eq_some_iff, Option.some.injEq, Prod.mk.injEq] at h
    obtain ⟨_, -, _, -, _, -, _, -, _, -, rfl, -⟩ := h
    exact ⟨fun e => absurd rfl e, fun _ => ⟨by rw [hs1, not_not.1 hne], by rw [hs2, not_not.1 hne2], not_not.1 hne3⟩⟩

/-! ## Run-time kernel -/

/-- What the caller of `TransposeConv2D::Issue` has to provide, here for tensors of 8-bit input and weights: nothing of this is checked. -/
structure TcIssueArgs (tin tw tout : Tensor) (c : ConvCfg) (src wts dst : Buf) (ih iw ic kh kw kn oh ow : Int) : Prop where
  vi : tin.Valid src
  vw : tw.Valid wts
  vo : tout.Valid dst
  xr : tin.Holds src 8
  wr : tw.Holds wts 8
  cfg : c.Typed
  si : tin.shape = [ih, iw, ic]
  sk : tw.shape = [kh, kw, ic, kn]
  so : tout.shape = [oh, ow, kn]
  ui : innerOne tin = true
  uo : innerOne tout = true
  strideH : 1 ≤ c.sh ∧ c.sh ≤ kh
  strideW : 1 ≤ c.sw ∧ c.sw ≤ kw
  pt : c.pt < kh
  pl : c.pl < kw
  outH : oh ≤ (ih - 1) * c.sh + kh - c.pt
  outW : ow ≤ (iw - 1) * c.sw + kw - c.pl

theorem sub_whole {k s a : Int} (s1 : 1 ≤ s) (sk : s ≤ k) (a0 : 0 ≤ a) (h : ceilDiv (k - a) s = k) (ha : a < s) : s = 1 ∧ a = 0 := by
  have := (lt_ceilDiv_iff' (a := k - a) (b := s) (i := k - 1) (by omega) (by omega)).1 (by omega)
  by_cases h2 : 2 ≤ s
  · have : (k - 1) * 2 ≤ (k - 1) * s := Int.mul_le_mul_of_nonneg_left h2 (by omega)
    omega
  · have : s = 1 := by omega
    omega

theorem boxSum_mirror (C H W : Nat) (f : Int → Int → Nat → Int) :
    (boxSum C H W fun cc i j => f ((H : Int) - 1 - i) ((W : Int) - 1 - j) cc) =
      ∑ i ∈ Finset.range H, ∑ j ∈ Finset.range W, ∑ cc ∈ Finset.range C, f i j cc := by
  have e : (∑ i ∈ Finset.range H, ∑ j ∈ Finset.range W, ∑ cc ∈ Finset.range C, f i j cc) =
      ∑ cc ∈ Finset.range C, ∑ i ∈ Finset.range H, ∑ j ∈ Finset.range W, f i j cc := by
    rw [Finset.sum_comm (s := Finset.range C)]
    apply Finset.sum_congr rfl; intro i _
    rw [Finset.sum_comm]
  rw [e]
  unfold boxSum
  apply Finset.sum_congr rfl; intro cc _
  rw [← Finset.sum_range_reflect]
  apply Finset.sum_congr rfl; intro i hi
  rw [← Finset.sum_range_reflect]
  apply Finset.sum_congr rfl; intro j hj
  have hi := Finset.mem_range.1 hi
  have hj := Finset.mem_range.1 hj
  show f ((H : Int) - 1 - ((H - 1 - i : Nat) : Int)) ((W : Int) - 1 - ((W - 1 - j : Nat) : Int)) cc = _
  rw [show (H : Int) - 1 - ((H - 1 - i : Nat) : Int) = i by omega, show (W : Int) - 1 - ((W - 1 - j : Nat) : Int) = j by omega]

/-- `TransposeConv2D::Issue` on tensors that only need to be laid out in their buffers; the output elements are at different addresses. -/
theorem transpose_issue_laid (zx : Int) {src wts dst : Buf} {tin tw tout : Tensor} {c : ConvCfg} {ih iw ic kh kw kc kn oh ow oc : Dim}
    (T : TcT tin tw tout c src wts ih iw ic kh kw kc kn oh ow oc) (hob : ∀ is, InShape tout.shape is → 0 ≤ tout.addr is ∧ tout.addr is < dst.size)
    (hoj : ∀ is js, InShape tout.shape is → InShape tout.shape js → tout.addr is = tout.addr js → is = js)
    (xr : tin.Holds src 8) (wr : tw.Holds wts 8) (hc : c.Typed) (hz : InRange 8 zx) (ht : ic.shape * (kh.shape * kw.shape) ≤ 43690) :
    ∃ dst', transposeIssue zx 0 src wts tin tw c tout dst = some dst' ∧ tout.Writes (fun is => match is with
      | [y, x, k] => scatterSum ih.shape iw.shape kh.shape kw.shape ic.shape (fun r p k => inElem src tin r p k - zx) (wtElem wts tw k)
          c.sh c.sw c.pt c.pl y x + zx * kernelSum kh.shape kw.shape ic.shape (wtElem wts tw k)
      | _ => 0) dst dst' := by
  have pi := T.vi.shape_pos
  have pw := T.vw.shape_pos
  simp only [T.di, T.dk, List.mem_cons, List.not_mem_nil, or_false, forall_eq_or_imp, forall_eq] at pi pw
  have hzx : wrap 16 (-zx) = -zx := by
    apply wrap_of_inRange (by omega)
    obtain ⟨a, b⟩ := hz
    simp only [lo, hi] at a b
    constructor <;> simp only [lo, hi] <;> omega
  obtain ⟨dst', h1, h2⟩ := tcRun_laid hob hoj T.dout T.uo
    (fun is => match is with
      | [y, x, k] => scatterSum ih.shape iw.shape kh.shape kw.shape ic.shape (fun r p k => inElem src tin r p k - zx) (wtElem wts tw k)
          c.sh c.sw c.pt c.pl y x + zx * kernelSum kh.shape kw.shape ic.shape (wtElem wts tw k)
      | _ => 0)
    (convNoBiasFull { aw := 32, zx := zx, zw := 0, inAdd3 := false } src wts (mirrorW (wtPrv tw kh kw kc kn))) c
    (inPrv tin ih iw ic ih.shape iw.shape) (wtPrv tw kh kw kc kn) T.H T.W
    (outPrv tout oh ow oc) (by simp only [prvHwc, T.dout, outPrv]) (by
      intro a b Y X k ha hb' hY hX hk
      have hk' : (k : Int) < kn.shape := by rw [← T.eo]; exact hk
      obtain ⟨D, O⟩ := tcAxis_out T.H (off := a) (by omega) ha
      obtain ⟨D', O'⟩ := tcAxis_out T.W (off := b) (by omega) hb'
      obtain ⟨m1, m2, m3, m4⟩ := T.le ha hb'
      obtain ⟨t, t0, t1, t2, t3⟩ := O.meets T.H (by omega) ha hY (by omega)
      have tc : tapCoord 1 (axH c ih kh oh a).pad 1 Y t = Y - (axH c ih kh oh a).pad + t := by unfold tapCoord; ring
      have inW : ∀ i j (ch : Nat), 0 ≤ i → i < kh.shape → 0 ≤ j → j < kw.shape → (ch : Int) < ic.shape →
          InShape tw.shape [kh.shape - 1 - i, kw.shape - 1 - j, (ch : Int), (k : Int)] := by
        intro i j ch i0 i1 j0 j1 hc; have hch := T.hch
        simp only [Tensor.shape, T.dk, List.map_cons, List.map_nil, InShape]
        exact ⟨⟨by omega, by omega⟩, ⟨by omega, by omega⟩, ⟨by omega, by omega⟩, ⟨by omega, by omega⟩, trivial⟩
      rw [convNoBiasFull_gen (T.reads ha hb' hk') (wf := mirrorW (wtPrv tw kh kw kc kn))
        (F := fun i j ch => wtElem wts tw k (kh.shape - 1 - i) (kw.shape - 1 - j) ch) (by
          intro i j ch i0 i1 j0 j1 hc
          have e := T.vw.rd (inW i j ch i0 i1 j0 j1 hc) rfl
          rw [wtElem, ← e]
          congr 1
          show tw.base + (kh.stride * (kh.shape - 1) + kw.stride * (kw.shape - 1)) + kn.stride * k + kc.stride * ch + -kh.stride * i + -kw.stride * j = _
          simp only [Tensor.addr, Tensor.strides, T.dk, List.map_cons, List.map_nil, offset]
          ring)
        { aw := 32, zx := zx, zw := 0, inAdd3 := false } (le_refl 1) (le_refl 1) rfl hzx (by show 0 ≤ ic.shape; omega)
        (by show 0 ≤ ceilDiv (kh.shape - a) c.sh; omega) (by show 0 ≤ ceilDiv (kw.shape - b) c.sw; omega) m2 m4
        (by show 1 ≤ kh.shape; omega) (by show 1 ≤ kw.shape; omega) (by
          intro q1 q2 i j ch
          obtain ⟨z1, z2⟩ := sub_whole T.H.s1 T.H.sk (by omega) q1 ha
          obtain ⟨z3, z4⟩ := sub_whole T.W.s1 T.W.sk (by omega) q2 hb'
          simp only [z1, z2, z3, z4, Int.one_mul, Int.sub_zero])
        ⟨t, t0, t1, by show 0 ≤ tapCoord 1 (axH c ih kh oh a).pad 1 Y t; rw [tc]; exact t2,
          by show tapCoord 1 (axH c ih kh oh a).pad 1 Y t < (axH c ih kh oh a).inSize; rw [tc]; exact t3⟩
        (2 ^ 14) (2 ^ 14) (T.bounds ha hb' hk' (by decide) (by decide) (fun is js h h' => dot8_le (xr is h) (wr js h')) (fun js h' => by
          have := dot8_le hz (wr js h')
          rwa [Int.neg_mul, abs_neg])) (by
          intro i j ch i0 i1 j0 j1 hc
          have := dot8_le hz (wr _ (inW i j ch i0 i1 j0 j1 hc))
          rwa [Int.neg_mul, abs_neg]) (by
          have e : ((ic.shape.toNat * (kh.shape.toNat * kw.shape.toNat) : Nat) : Int) = ic.shape * (kh.shape * kw.shape) := T.taps_eq
          show ((ic.shape.toNat * (kh.shape.toNat * kw.shape.toNat) : Nat) : Int) * _ ≤ hi 32
          rw [e]
          simp only [hi]
          omega)]
      have g1 := tc_convSum O T.H (by omega) ha O' T.W (by omega) hb' hY (by omega) hX (by omega) ic.shape
        (fun r q' ch => inElem src tin r q' ch - zx) (wtElem wts tw k)
      have g2 := boxSum_mirror ic.shape.toNat kh.shape.toNat kw.shape.toNat (fun i j cc => wtElem wts tw k i j cc)
      rw [Int.toNat_of_nonneg (by omega : 0 ≤ kh.shape), Int.toNat_of_nonneg (by omega : 0 ≤ kw.shape)] at g2
      refine congrArg some (congrArg₂ (· + ·) g1 (congrArg (zx * ·) g2)))
  refine ⟨dst', ?_, h2⟩
  have ei : prvHwc tin = some (inPrv tin ih iw ic ih.shape iw.shape) := by simp only [prvHwc, T.di, inPrv]
  have ew : prvHwcn false tw = some (wtPrv tw kh kw kc kn) := by simp only [prvHwcn, T.dk, wtPrv, Bool.false_eq_true, if_false]
  have eo : prvHwc tout = some (outPrv tout oh ow oc) := by simp only [prvHwc, T.dout, outPrv]
  simp only [transposeIssue, ei, ew, eo, Option.bind_eq_bind, Option.bind_some, narrow_typed hc]
  exact h1

/-- C45 for `TransposeConv2D::Issue` (8-bit input and weights, 32-bit output) with weights zero point 0: each output is the sum of
`(x - x_zp) * w` over the pairs that meet there, plus the input zero point times the sum of the weights of the kernel, which the following
re-quantisation step removes.  Restrictions: weights zero point 0, at most 43690 products, 8-bit configuration values. -/
theorem c45_runtime_partial (zx : Int) (src wts dst : Buf) (tin tw tout : Tensor) (c : ConvCfg) (ih iw ic kh kw kn oh ow : Int)
    (A : TcIssueArgs tin tw tout c src wts dst ih iw ic kh kw kn oh ow) (hz : InRange 8 zx) (ht : ic * (kh * kw) ≤ 43690) :
    ∃ dst' val, transposeIssue zx 0 src wts tin tw c tout dst = some dst' ∧ tout.Writes val dst dst' ∧
      ∀ y x k, InShape tout.shape [y, x, k] →
        val [y, x, k] = scatterSum ih iw kh kw ic (fun r p k => inElem src tin r p k - zx) (wtElem wts tw k) c.sh c.sw c.pt c.pl y x +
          zx * kernelSum kh kw ic (wtElem wts tw k) := by
  obtain ⟨ih, iw, ic', e1, rfl, rfl, rfl⟩ := shape3 A.si
  obtain ⟨kh, kw, kc, kn, e2, rfl, rfl, hkc, rfl⟩ := shape4 A.sk
  obtain ⟨oh, ow, oc, e3, rfl, rfl, hoc⟩ := shape3 A.so
  obtain ⟨⟨s1, -⟩, ⟨s2, -⟩, ⟨t1, -⟩, ⟨t2, -⟩, ⟨t3, -⟩, ⟨t4, -⟩, -⟩ := A.cfg
  have po := A.vo.shape_pos
  have pi := A.vi.shape_pos
  have pw := A.vw.shape_pos
  simp only [e1, e2, e3, List.mem_cons, List.not_mem_nil, or_false, forall_eq_or_imp, forall_eq] at po pi pw
  have T : TcT tin tw tout c src wts ih iw ic' kh kw kc kn oh ow oc :=
    ⟨A.vi.placed, A.vw.placed, e1, e2, inner3 e1 A.ui, hkc.symm, e3, inner3 e3 A.uo, hoc,
      ⟨pi.1, t1, A.pt, A.strideH.1, A.strideH.2, po.1, A.outH⟩, ⟨pi.2.1, t3, A.pl, A.strideW.1, A.strideW.2, po.2.1, A.outW⟩⟩
  obtain ⟨dst', h1, h2⟩ := transpose_issue_laid zx T (fun _ h => A.vo.inBounds h)
    (fun _ _ h h' e => c09_accepted_no_alias tout A.vo.accepted _ _ h h' (by unfold Tensor.addr at e; omega)) A.xr A.wr A.cfg hz ht
  exact ⟨dst', _, h1, h2, fun _ _ _ _ => rfl⟩

/-! ## Examples -/

/-- The output of `exIn` and `exWt` with the strides and padding of `exCfg`: (3 - 1) * 2 + 2 - 1 by (4 - 1) * 2 + 3 - 1 - 1. -/
def exOutTc : Tensor := { dims := [⟨5, 14⟩, ⟨7, 2⟩, ⟨2, 1⟩], cap := 140, es := 2 }
def exOutTc32 : Tensor := { dims := [⟨5, 14⟩, ⟨7, 2⟩, ⟨2, 1⟩], cap := 280, es := 4 }
def exTcDst : Buf := Buf.ofList (List.replicate 71 99)

theorem exTcArgs : ConvArgs exIn exWt exBias exOutTc exCfg (Buf.ofList exSrc) (Buf.ofList exWts) (Buf.ofList [5, -6]) exTcDst 16 16 16 ∧
    ConvArgs exIn exWt.bytes exBias.bytes exOutTc exCfg (Buf.ofList exSrc) (Buf.ofList exWts) (Buf.ofList [5, -6]) exTcDst 16 8 8 ∧
    ConvArgs exIn.bytes exWt.bytes exBias32 exOutTc.bytes exCfg (Buf.ofList exSrc) (Buf.ofList exWts) (Buf.ofList [500, -600]) exTcDst 8 8 32 :=
  ⟨⟨⟨by decide, by decide, by decide, by decide⟩, ⟨by decide, by decide, by decide, by decide⟩, ⟨by decide, by decide, by decide, by decide⟩,
    ⟨by decide, by decide, by decide, by decide⟩, holds_ofList (by decide) _, holds_ofList (by decide) _, holds_ofList (by decide) _, by decide⟩,
  ⟨⟨by decide, by decide, by decide, by decide⟩, ⟨by decide, by decide, by decide, by decide⟩, ⟨by decide, by decide, by decide, by decide⟩,
    ⟨by decide, by decide, by decide, by decide⟩, holds_ofList (by decide) _, holds_ofList (by decide) _, holds_ofList (by decide) _, by decide⟩,
  ⟨⟨by decide, by decide, by decide, by decide⟩, ⟨by decide, by decide, by decide, by decide⟩, ⟨by decide, by decide, by decide, by decide⟩,
    ⟨by decide, by decide, by decide, by decide⟩, holds_ofList (by decide) _, holds_ofList (by decide) _, holds_ofList (by decide) _, by decide⟩⟩

/-- Hypotheses of `c45_fx16`, `c45_fx16_fx8`, `c45_shape` and `c45_status_fx`, and the result; a wrong output height is refused. -/
example :
    let f : FxQ := { fi := 3, fw := 4, fb := 5, fo := 2, relu := .none }
    let res : List Int := [191, 204, 357, 382, 156, 167, 287, 307, 121, 129, 217, 232, 86, 91, 5, 8, 17, 20, 2, 1, 10, 8, -2, -5, 3, -4, -5, -11,
      51, 54, 77, 81, 16, 16, 7, 6, -19, -22, -63, -70, -54, -59, -9, -17, -11, -29, -12, -23, -18, -41, -16, -29, -25, -53,
      -19, -35, -89, -97, -203, -220, -124, -134, -273, -295, -159, -172, -343, -370, -194, -210, 99]
    chkTcFx 0 true f exIn exWt exBias exCfg exOutTc = some .ok ∧ chkTc true exIn exWt exBias exCfg exOutTc = some .ok ∧
    chkTcFx 0 true f exIn exWt.bytes exBias.bytes exCfg exOutTc = some .ok ∧ (f.fi + f.fw - f.fb ≤ 16) ∧ (2 * (2 * 3) ≤ 511) ∧
    exIn.shape = [3, 4, 2] ∧ exWt.shape = [2, 3, 2, 2] ∧ exOutTc.shape = [5, 7, 2] ∧
    (krnTcFx .convergent 64 0 true f (Buf.ofList exSrc) (Buf.ofList exWts) (Buf.ofList [5, -6]) exIn exWt exBias exCfg exOutTc
      exTcDst).map (fun p => (p.1, p.2.toList)) = some (.ok, res) ∧
    (krnTcFx .convergent 32 0 true f (Buf.ofList exSrc) (Buf.ofList exWts) (Buf.ofList [5, -6]) exIn exWt.bytes exBias.bytes exCfg exOutTc
      exTcDst).map (fun p => (p.1, p.2.toList)) = some (.ok, res) ∧
    (krnTcFx .convergent 64 0 true f (Buf.ofList exSrc) (Buf.ofList exWts) (Buf.ofList [5, -6]) exIn exWt exBias exCfg exOut
      exTcDst).map (fun p => (p.1 = .ok, p.2.toList)) = some (False, exTcDst.toList) := by
  simp only [Option.map_some]
  refine ⟨by decide +kernel, by decide +kernel, by decide +kernel, by decide, by decide, rfl, rfl, rfl, by decide +kernel, by decide +kernel, ?_⟩
  have h : (krnTcFx .convergent 64 0 true { fi := 3, fw := 4, fb := 5, fo := 2, relu := .none } (Buf.ofList exSrc) (Buf.ofList exWts)
      (Buf.ofList [5, -6]) exIn exWt exBias exCfg exOut exTcDst).map (fun p => (decide (p.1 = .ok), p.2.toList)) =
      some (false, exTcDst.toList) := by decide +kernel
  simp only [Option.map_eq_some_iff, Prod.mk.injEq, decide_eq_false_iff_not] at h ⊢
  obtain ⟨p, h1, h2, h3⟩ := h
  exact ⟨p, h1, by simpa using h2, h3⟩

/-- Hypotheses of `c45_sa8` and `c45_status_sa8`, and the result. -/
example :
    chkTc true exIn.bytes exWt.bytes exBias32 exCfg exOutTc.bytes = some .ok ∧
    chkSa8 .convergent exQ exIn.bytes exWt.bytes exBias32 exOutTc.bytes = some .ok ∧ chkTcSpec 0 exWt.bytes exCfg = .ok ∧
    (exQ.qi.Typed ∧ exQ.qw.Typed ∧ exQ.qo.Typed) ∧
    (krnTcSa8 .convergent false 0 true exQ (Buf.ofList exSrc) (Buf.ofList exWts) (Buf.ofList [500, -600]) exIn.bytes exWt.bytes exBias32
      exCfg exOutTc.bytes exTcDst).map (fun p => (p.1, p.2.toList)) =
      some (.ok, [13, 14, 18, 21, 12, 13, 16, 18, 11, 11, 14, 15, 10, 10, 8, 7, 8, 7, 7, 7, 8, 7, 7, 7, 7, 7, 7, 7, 9, 8, 9, 9, 8, 7, 7,
        7, 7, 7, 7, 7, 7, 7, 7, 7, 7, 7, 7, 7, 7, 7, 7, 7, 7, 7, 7, 7, 7, 7, 7, 7, 7, 7, 7, 7, 7, 7, 7, 7, 7, 7, 99]) := by
  decide +kernel

/-- Hypotheses of `c45_runtime_partial`. -/
theorem exTcIssue : TcIssueArgs exIn.bytes exWt.bytes exOutTc32 exCfg (Buf.ofList exSrc) (Buf.ofList exWts) exTcDst 3 4 2 2 3 2 5 7 :=
  ⟨⟨by decide, by decide, by decide, by decide⟩, ⟨by decide, by decide, by decide, by decide⟩, ⟨by decide, by decide, by decide, by decide⟩,
    holds_ofList (by decide) _, holds_ofList (by decide) _, by decide, by decide, by decide, by decide, by decide, by decide,
    by decide, by decide, by decide, by decide, by decide, by decide⟩

example : InRange 8 (-3) ∧ ((2 : Int) * (2 * 3) ≤ 43690) ∧
    ((transposeIssue (-3) 0 (Buf.ofList exSrc) (Buf.ofList exWts) exIn.bytes exWt.bytes exCfg exOutTc32 exTcDst).map
      fun d => (d.toList.take 20)) = some
  [6651, 7200, 11726, 12632, 5531, 5996, 9486, 10224, 4411, 4792, 7246, 7816, 3291, 3588, 911, 1124, 1254, 1488, 799, 928] := by
  decide +kernel

/-- C45 fails for `TransposeConv2D::Issue` with a non-zero weights zero point: with `x = w = zw = 1` and input zero point 0 the output
should be `x * (w - zw) = 0`, and is 1. -/
theorem c45_runtime_violated :
    let w1 : Tensor := { dims := [⟨1, 1⟩, ⟨1, 1⟩, ⟨1, 1⟩, ⟨1, 1⟩], cap := 1, es := 1 }
    let i1 : Tensor := { dims := [⟨1, 1⟩, ⟨1, 1⟩, ⟨1, 1⟩], cap := 1, es := 1 }
    let o1 : Tensor := { dims := [⟨1, 1⟩, ⟨1, 1⟩, ⟨1, 1⟩], cap := 4, es := 4 }
    TcIssueArgs i1 w1 o1 { sh := 1, sw := 1 } (Buf.ofList [1]) (Buf.ofList [1]) (Buf.ofList [99]) 1 1 1 1 1 1 1 1 ∧
    (transposeIssue 0 1 (Buf.ofList [1]) (Buf.ofList [1]) i1 w1 { sh := 1, sw := 1 } o1 (Buf.ofList [99])).map Buf.toList = some [1] ∧
    scatterSum 1 1 1 1 1 (inElem (Buf.ofList [1]) i1) (fun i j k => wtElem (Buf.ofList [1]) w1 0 i j k - 1) 1 1 0 0 0 0 = 0 := by
  refine ⟨⟨⟨by decide, by decide, by decide, by decide⟩, ⟨by decide, by decide, by decide, by decide⟩, ⟨by decide, by decide, by decide, by decide⟩,
    holds_ofList (by decide) _, holds_ofList (by decide) _, by decide, by decide, by decide, by decide, by decide, by decide, by decide,
    by decide, by decide, by decide, by decide, by decide⟩, by decide +kernel, ?_⟩
  simp only [scatterSum]
  decide +kernel

end Mli
