import Verif.Lemmas.ConvGen
import Verif.Lemmas.Dot
import Verif.Spec.TransposeConv

/-! # Decomposition of a transposed convolution into sub-convolutions -/

namespace Mli

open Spec

theorem lt_ceilDiv_iff' {a b i : Int} (ha : 0 ≤ a + b - 1) (hb : 0 < b) : i < ceilDiv a b ↔ i * b < a := by
  unfold ceilDiv
  rw [Int.tdiv_eq_ediv_of_nonneg ha]
  have h1 := Int.emod_add_mul_ediv (a + b - 1) b
  have h2 := Int.emod_nonneg (a + b - 1) (b := b) (by omega)
  have h3 := Int.emod_lt_of_pos (a + b - 1) hb
  generalize (a + b - 1) / b = q at *
  generalize (a + b - 1) % b = r at *
  constructor
  · intro h
    have : b * (i + 1) ≤ b * q := Int.mul_le_mul_of_nonneg_left (by omega) (by omega)
    have e : b * (i + 1) = i * b + b := by ring
    omega
  · intro h
    by_contra hc
    have : b * q ≤ b * i := Int.mul_le_mul_of_nonneg_left (by omega) (by omega)
    have e : b * i = i * b := by ring
    omega

theorem ceilDiv_eq {a b c : Int} (ha : 0 ≤ a + b - 1) (hb : 0 < b) (h1 : (c - 1) * b < a) (h2 : a ≤ c * b) : ceilDiv a b = c := by
  have a1 := (lt_ceilDiv_iff' (i := c - 1) ha hb).2 h1
  have a2 := mt (lt_ceilDiv_iff' (i := c) ha hb).1 (by omega)
  omega

/-- One axis of a transposed convolution. -/
structure TcIn (n k s p out : Int) : Prop where
  n1 : 1 ≤ n
  p0 : 0 ≤ p
  pk : p < k
  s1 : 1 ≤ s
  sk : s ≤ k
  o1 : 1 ≤ out
  len : out ≤ (n - 1) * s + k - p

/-- What the sub-convolution for offset `off` has to satisfy: it computes the outputs `outOff + s * Y`, from input `Y + t + D` and tap
`k - 1 - off - s * t`. -/
structure TcOut (n k s p out off : Int) (A : TcAxis) (m D : Int) : Prop where
  o0 : 0 ≤ A.outOff
  os : A.outOff < s
  eD : A.outOff + off - (k - p - 1) = D * s
  ein : A.inOff = max 0 D
  epad : A.pad = max 0 (-D)
  esz : A.inSize = min (A.outSize + (m - 1) - A.pad) (n - A.inOff)
  em : m = ceilDiv (k - off) s
  iff : ∀ Y, Y < A.outSize ↔ A.outOff + s * Y < out
  D1 : D ≤ 1

variable {n k s p out off : Int}

theorem tcAxis_out (h : TcIn n k s p out) (f0 : 0 ≤ off) (f1 : off < s) :
    ∃ D, TcOut n k s p out off (tcAxis n k s p out (ceilDiv (k - off) s) off) (ceilDiv (k - off) s) D := by
  obtain ⟨n1, p0, pk, s1, sk, o1, len⟩ := h
  have q1 := Int.emod_add_mul_ediv (s - off + (k - p - 1)) s
  have q2 := Int.emod_nonneg (s - off + (k - p - 1)) (b := s) (by omega)
  have q3 := Int.emod_lt_of_pos (s - off + (k - p - 1)) (b := s) (by omega)
  have q4 : 0 ≤ (s - off + (k - p - 1)) / s := Int.ediv_nonneg (by omega) (by omega)
  have et : (s - off + (k - p - 1)).tmod s = (s - off + (k - p - 1)) % s := Int.tmod_eq_emod_of_nonneg (by omega)
  unfold tcAxis
  simp only [et]
  generalize (s - off + (k - p - 1)) % s = o at *
  generalize (s - off + (k - p - 1)) / s = q at *
  have eD : o + off - (k - p - 1) = (1 - q) * s := by have : (1 - q) * s = s - s * q := by ring
                                                      omega
  refine ⟨1 - q, ⟨q2, q3, eD, ?_, ?_, rfl, rfl, ?_, by omega⟩⟩
  · by_cases hq : q = 0
    · subst hq
      rw [show max 0 (1 - 0 : Int) = 1 by decide, show max 0 (o - (k - p - 1)) = o - (k - p - 1) by omega]
      exact ceilDiv_eq (by omega) (by omega) (by omega) (by omega)
    · have : (1 - q) * s ≤ 0 * s := Int.mul_le_mul_of_nonneg_right (by omega) (by omega)
      rw [show max 0 (1 - q : Int) = 0 by omega, show max 0 (o - (k - p - 1)) = 0 by omega, ceilDiv_zero (by omega)]
  · by_cases hq : q = 0
    · subst hq
      rw [show max 0 (-(1 - 0) : Int) = 0 by decide, show max 0 (k - p - 1 - o - off) = 0 by omega, ceilDiv_zero (by omega)]
    · have : 0 * s ≤ (q - 1) * s := Int.mul_le_mul_of_nonneg_right (by omega) (by omega)
      have e1 : (q - 1) * s = -((1 - q) * s) := by ring
      have e2 : (q - 1 - 1) * s = (q - 1) * s - s := by ring
      rw [show max 0 (-(1 - q) : Int) = q - 1 by omega, show max 0 (k - p - 1 - o - off) = (q - 1) * s by omega]
      exact ceilDiv_eq (by omega) (by omega) (by omega) (by omega)
  · intro Y
    show Y < ceilDiv (out - o) s ↔ o + s * Y < out
    rw [lt_ceilDiv_iff' (by omega) (by omega)]
    have : s * Y = Y * s := by ring
    omega

namespace TcOut

variable {A : TcAxis} {m D : Int} (O : TcOut n k s p out off A m D) (h : TcIn n k s p out) (f0 : 0 ≤ off) (f1 : off < s)
include O h f0 f1

theorem msize : 1 ≤ m ∧ m ≤ k ∧ ∀ t, t < m ↔ t * s < k - off := by
  obtain ⟨n1, p0, pk, s1, sk, o1, len⟩ := h
  have g : ∀ t, t < m ↔ t * s < k - off := fun t => by rw [O.em]; exact lt_ceilDiv_iff' (by omega) (by omega)
  refine ⟨?_, ?_, g⟩
  · have := (g 0).2 (by omega)
    omega
  · by_contra hc
    have := (g k).1 (by omega)
    have : k * 1 ≤ k * s := Int.mul_le_mul_of_nonneg_left (by omega) (by omega)
    omega

theorem inside {Y t : Int} (h1 : Y < A.outSize) (h2 : t < m) (hY : 0 ≤ Y) (ht : 0 ≤ t) :
    (0 ≤ Y - A.pad + t ∧ Y - A.pad + t < A.inSize) ↔ (0 ≤ Y + D + t ∧ Y + D + t < n) := by
  obtain ⟨o0, os, eD, ein, epad, esz, em, iff, D1⟩ := O
  omega

theorem shift (t Y : Int) : Y - A.pad + t + A.inOff = Y + D + t := by
  obtain ⟨o0, os, eD, ein, epad, esz, em, iff, D1⟩ := O
  omega

/-- The window is never empty. -/
theorem meets {Y : Int} (h1 : Y < A.outSize) (hY : 0 ≤ Y) : ∃ t, 0 ≤ t ∧ t < m ∧ 0 ≤ Y - A.pad + t ∧ Y - A.pad + t < A.inSize := by
  obtain ⟨m1, m2, g⟩ := O.msize h f0 f1
  have hy := (O.iff Y).1 h1
  have eD := O.eD
  obtain ⟨n1, p0, pk, s1, sk, o1, len⟩ := id h
  have e1 : (Y + D) * s = s * Y + D * s := by ring
  have c1 : Y + D < n := by
    by_contra hc
    have : n * s ≤ (Y + D) * s := Int.mul_le_mul_of_nonneg_right (by omega) (by omega)
    have e2 : (n - 1) * s = n * s - s := by ring
    omega
  have c2 : 1 ≤ Y + D + m := by
    by_contra hc
    have hm := mt (g m).2 (by omega)
    have : (Y + D + m) * s ≤ 0 * s := Int.mul_le_mul_of_nonneg_right (by omega) (by omega)
    have e2 : (Y + D + m) * s = (Y + D) * s + m * s := by ring
    have : 0 ≤ s * Y := Int.mul_nonneg (by omega) hY
    have := O.o0
    omega
  refine ⟨max 0 (-(Y + D)), by omega, by omega, (O.inside h f0 f1 h1 (by omega) hY (by omega)).2 (by omega)⟩

theorem sum {Y : Int} (h1 : Y < A.outSize) (hY : 0 ≤ Y) (F : Int → Int → Int) :
    (∑ t ∈ Finset.range m.toNat, if 0 ≤ Y - A.pad + t ∧ Y - A.pad + t < A.inSize then F (Y - A.pad + t + A.inOff) (k - 1 - off - s * t) else 0) =
      ∑ iy ∈ Finset.range n.toNat, ∑ ky ∈ Finset.range k.toNat, if (iy : Int) * s + ky - p = A.outOff + s * Y then F iy ky else 0 := by
  obtain ⟨m1, m2, g⟩ := O.msize h f0 f1
  have eD := O.eD
  obtain ⟨n1, p0, pk, s1, sk, o1, len⟩ := id h
  rw [← Finset.sum_product', ← Finset.sum_filter, ← Finset.sum_filter]
  have e1 : (Y + D) * s = s * Y + D * s := by ring
  refine Finset.sum_bij' (fun t _ => ((Y + D + (t : Int)).toNat, (k - 1 - off - s * (t : Int)).toNat)) (fun q _ => ((q.1 : Int) - Y - D).toNat)
    ?_ ?_ ?_ ?_ ?_
  · intro t ht
    simp only [Finset.mem_filter, Finset.mem_range] at ht
    have hin := (O.inside h f0 f1 h1 (by omega) hY (by omega)).1 ht.2
    have hg := (g t).1 (by omega)
    have e2 : s * (t : Int) = t * s := by ring
    have e3 : (Y + D + (t : Int)) * s = (Y + D) * s + t * s := by ring
    have : 0 ≤ (t : Int) * s := Int.mul_nonneg (by omega) (by omega)
    simp only [Finset.mem_filter, Finset.mem_product, Finset.mem_range]
    rw [Int.toNat_of_nonneg (by omega : 0 ≤ Y + D + (t : Int)), Int.toNat_of_nonneg (by omega : 0 ≤ k - 1 - off - s * (t : Int))]
    refine ⟨⟨by omega, by omega⟩, by omega⟩
  · intro q hq
    simp only [Finset.mem_filter, Finset.mem_product, Finset.mem_range] at hq
    obtain ⟨⟨q1, q2⟩, q3⟩ := hq
    have e3 : ((q.1 : Int) - Y - D) * s = q.1 * s - (Y + D) * s := by ring
    have t0 : 0 ≤ (q.1 : Int) - Y - D := by
      by_contra hc
      have : ((q.1 : Int) - Y - D) * s ≤ (-1) * s := Int.mul_le_mul_of_nonneg_right (by omega) (by omega)
      omega
    have tm : (q.1 : Int) - Y - D < m := (g _).2 (by omega)
    simp only [Finset.mem_filter, Finset.mem_range]
    refine ⟨by omega, ?_⟩
    rw [Int.toNat_of_nonneg t0]
    exact (O.inside h f0 f1 h1 tm hY t0).2 (by omega)
  · intro t ht
    simp only [Finset.mem_filter, Finset.mem_range] at ht
    have hin := (O.inside h f0 f1 h1 (by omega) hY (by omega)).1 ht.2
    simp only []
    omega
  · intro q hq
    simp only [Finset.mem_filter, Finset.mem_product, Finset.mem_range] at hq
    obtain ⟨⟨q1, q2⟩, q3⟩ := hq
    have e3 : ((q.1 : Int) - Y - D) * s = q.1 * s - (Y + D) * s := by ring
    have t0 : 0 ≤ (q.1 : Int) - Y - D := by
      by_contra hc
      have : ((q.1 : Int) - Y - D) * s ≤ (-1) * s := Int.mul_le_mul_of_nonneg_right (by omega) (by omega)
      omega
    have e4 : s * ((q.1 : Int) - Y - D) = ((q.1 : Int) - Y - D) * s := by ring
    ext
    · simp only [Int.toNat_of_nonneg t0]; omega
    · simp only [Int.toNat_of_nonneg t0]; omega
  · intro t ht
    simp only [Finset.mem_filter, Finset.mem_range] at ht
    have hin := (O.inside h f0 f1 h1 (by omega) hY (by omega)).1 ht.2
    have hg := (g t).1 (by omega)
    have e2 : s * (t : Int) = t * s := by ring
    simp only []
    rw [O.shift h f0 f1, Int.toNat_of_nonneg (by omega : 0 ≤ Y + D + (t : Int)), Int.toNat_of_nonneg (by omega : 0 ≤ k - 1 - off - s * (t : Int))]

end TcOut

/-- Every output belongs to a sub-convolution. -/
theorem tcAxis_cover (h : TcIn n k s p out) {y : Int} (y0 : 0 ≤ y) (y1 : y < out) :
    ∃ off : Nat, (off : Int) < s ∧ ∃ Y : Nat, (Y : Int) < (tcAxis n k s p out (ceilDiv (k - off) s) off).outSize ∧
      (tcAxis n k s p out (ceilDiv (k - off) s) off).outOff + s * Y = y := by
  obtain ⟨n1, p0, pk, s1, sk, o1, len⟩ := id h
  have a1 := Int.emod_nonneg (k - p - 1 - y) (b := s) (by omega)
  have a2 := Int.emod_lt_of_pos (k - p - 1 - y) (b := s) (by omega)
  have a3 := Int.emod_add_mul_ediv (k - p - 1 - y) s
  refine ⟨((k - p - 1 - y) % s).toNat, by omega, ?_⟩
  obtain ⟨D, O⟩ := tcAxis_out h (off := (((k - p - 1 - y) % s).toNat : Int)) (by omega) (by omega)
  generalize hA : tcAxis n k s p out (ceilDiv (k - (((k - p - 1 - y) % s).toNat : Int)) s) ((k - p - 1 - y) % s).toNat = A at *
  have eD := O.eD
  have o0 := O.o0
  have os := O.os
  rw [Int.toNat_of_nonneg a1] at eD
  generalize (k - p - 1 - y) / s = q at *
  have e1 : y - A.outOff = s * (-(q + D)) := by
    have : s * (-(q + D)) = -(s * q) - D * s := by ring
    omega
  have y2 : 0 ≤ -(q + D) := by
    by_contra hc
    have : s * (-(q + D)) ≤ s * (-1) := Int.mul_le_mul_of_nonneg_left (by omega) (by omega)
    omega
  refine ⟨(-(q + D)).toNat, ?_, ?_⟩
  · rw [O.iff, Int.toNat_of_nonneg y2]; omega
  · rw [Int.toNat_of_nonneg y2]; omega

/-- Two axes. -/
theorem tc_convSum {n' k' s' p' out' off' : Int} {A A' : TcAxis} {m m' D D' : Int} (O : TcOut n k s p out off A m D) (h : TcIn n k s p out)
    (f0 : 0 ≤ off) (f1 : off < s) (O' : TcOut n' k' s' p' out' off' A' m' D') (h' : TcIn n' k' s' p' out') (f0' : 0 ≤ off') (f1' : off' < s')
    {Y Z : Int} (y1 : Y < A.outSize) (y0 : 0 ≤ Y) (z1 : Z < A'.outSize) (z0 : 0 ≤ Z) (ic : Int) (X W : Int → Int → Int → Int) :
    convSum m m' ic (padded A.inSize A'.inSize 0 fun r q c => X (r + A.inOff) (q + A'.inOff) c)
        (fun i j c => W (k - 1 - off - s * i) (k' - 1 - off' - s' * j) c) 1 1 A.pad A'.pad 1 1 Y Z =
      scatterSum n n' k k' ic X W s s' p p' (A.outOff + s * Y) (A'.outOff + s' * Z) := by
  unfold convSum scatterSum
  have e2 := fun (F : Int → Int → Int) => O'.sum h' f0' f1' z1 z0 F
  have e1 := O.sum h f0 f1 y1 y0 (fun iy ky => ∑ ix ∈ Finset.range n'.toNat, ∑ kx ∈ Finset.range k'.toNat,
    if (ix : Int) * s' + kx - p' = A'.outOff + s' * Z then ∑ c ∈ Finset.range ic.toNat, X iy ix c * W ky kx c else 0)
  trans ∑ iy ∈ Finset.range n.toNat, ∑ ky ∈ Finset.range k.toNat, if (iy : Int) * s + ky - p = A.outOff + s * Y then
    ∑ ix ∈ Finset.range n'.toNat, ∑ kx ∈ Finset.range k'.toNat,
    if (ix : Int) * s' + kx - p' = A'.outOff + s' * Z then ∑ c ∈ Finset.range ic.toNat, X iy ix c * W ky kx c else 0 else 0
  swap
  · apply Finset.sum_congr rfl; intro iy _
    apply Finset.sum_congr rfl; intro ky _
    split
    · rename_i hc
      apply Finset.sum_congr rfl; intro ix _
      apply Finset.sum_congr rfl; intro kx _
      simp only [hc, true_and]
    · rename_i hc
      symm
      apply Finset.sum_eq_zero; intro ix _
      apply Finset.sum_eq_zero; intro kx _
      simp only [hc, false_and, if_false]
  rw [← e1]
  apply Finset.sum_congr rfl; intro i _
  have tY : tapCoord 1 A.pad 1 Y i = Y - A.pad + i := by unfold tapCoord; ring
  rw [tY]
  split
  · rename_i hc
    rw [← e2 (fun ix kx => ∑ c ∈ Finset.range ic.toNat, X (Y - A.pad + i + A.inOff) ix c * W (k - 1 - off - s * i) kx c)]
    apply Finset.sum_congr rfl; intro j _
    have tZ : tapCoord 1 A'.pad 1 Z j = Z - A'.pad + j := by unfold tapCoord; ring
    rw [tZ]
    split
    · rename_i hd
      apply Finset.sum_congr rfl; intro c _
      simp only [padded, hc.1, hc.2, hd.1, hd.2, true_and, if_true]
    · rename_i hd
      apply Finset.sum_eq_zero; intro c _
      rw [padded, if_neg (fun hh => hd hh.2.2), Int.zero_mul]
  · rename_i hc
    apply Finset.sum_eq_zero; intro j _
    apply Finset.sum_eq_zero; intro c _
    rw [padded, if_neg (fun hh => hc ⟨hh.1, hh.2.1⟩), Int.zero_mul]

/-- Position of an element of a rank-3 tensor. -/
abbrev Pos3 := Int × Int × Int

/-- The convolution loops over a view of the output that meets the elements `g H W k` of the tensor. -/
theorem convLoop_emits {t : Tensor} {mem : Buf} (hb : ∀ is, InShape t.shape is → 0 ≤ t.addr is ∧ t.addr is < mem.size)
    (hj : ∀ is js, InShape t.shape is → InShape t.shape js → t.addr is = t.addr js → is = js) (val : List Int → Int) (value : Int → Int → Int → Option Int)
    (o : Prv) (n : Int) (g : Nat → Nat → Nat → Pos3)
    (hg : ∀ H W k : Nat, (H : Int) < o.height → (W : Int) < o.width → (k : Int) < n →
      InShape t.shape [(g H W k).1, (g H W k).2.1, (g H W k).2.2] ∧
      o.ptr + o.row * H + o.col * W + k = t.addr [(g H W k).1, (g H W k).2.1, (g H W k).2.2] ∧
      value H W k = some (val [(g H W k).1, (g H W k).2.1, (g H W k).2.2]))
    (d : Buf) (hd : d.size = mem.size) :
    ∃ d', convLoop value o n d = some d' ∧
      Emits (fun p : Pos3 => t.addr [p.1, p.2.1, p.2.2]) (fun p => val [p.1, p.2.1, p.2.2])
        (fun p => ∃ H W k : Nat, (H : Int) < o.height ∧ (W : Int) < o.width ∧ (k : Int) < n ∧ p = g H W k) d d' := by
  let ad : Pos3 → Int := fun p => t.addr [p.1, p.2.1, p.2.2]
  let vl : Pos3 → Int := fun p => val [p.1, p.2.1, p.2.2]
  let ok : Pos3 → Prop := fun p => InShape t.shape [p.1, p.2.1, p.2.2]
  have hc : Coherent ad vl ok := by
    intro p q hp hq e
    have := hj _ _ hp hq e
    show val _ = val _
    rw [this]
  unfold convLoop
  obtain ⟨d', h1, h2⟩ := forRange_emits hc o.height.toNat
    (fun (H : Nat) => forRange o.width.toNat (fun (W : Nat) => forRange n.toNat (fun (k : Nat) d =>
      (value H W k).bind fun r => d.wr (o.ptr + o.row * H + o.col * W + k) r)))
    (fun H p => ∃ W k : Nat, (W : Int) < o.width ∧ (k : Int) < n ∧ p = g H W k) d (by
      rintro H p hH ⟨W, k, h1, h2, rfl⟩
      exact (hg H W k (by omega) h1 h2).1) (by
      intro H d1 hH hd1
      obtain ⟨d2, a1, a2⟩ := forRange_emits hc o.width.toNat (fun (W : Nat) => forRange n.toNat (fun (k : Nat) d =>
          (value H W k).bind fun r => d.wr (o.ptr + o.row * H + o.col * W + k) r))
        (fun W p => ∃ k : Nat, (k : Int) < n ∧ p = g H W k) d1 (by
          rintro W p hW ⟨k, h2, rfl⟩
          exact (hg H W k (by omega) (by omega) h2).1) (by
          intro W d2 hW hd2
          obtain ⟨d3, b1, b2⟩ := forRange_emits hc n.toNat (fun (k : Nat) d =>
              (value H W k).bind fun r => d.wr (o.ptr + o.row * H + o.col * W + k) r)
            (fun k p => p = g H W k) d2 (by
              rintro k p hk rfl
              exact (hg H W k (by omega) (by omega) (by omega)).1) (by
              intro k d3 hk hd3
              obtain ⟨i1, i2, i3⟩ := hg H W k (by omega) (by omega) (by omega)
              simp only [i3, Option.bind_some, i2]
              have := hb _ i1
              exact Emits.one ad vl (g H W k) d3 (by
                show 0 ≤ t.addr _ ∧ t.addr _ < _
                omega))
          refine ⟨d3, b1, b2.congr fun p => ?_⟩
          constructor
          · rintro ⟨k, hk, e⟩; exact ⟨k, by omega, e⟩
          · rintro ⟨k, hk, e⟩; exact ⟨k, by omega, e⟩)
      refine ⟨d2, a1, a2.congr fun p => ?_⟩
      constructor
      · rintro ⟨W, hW, k, hk, e⟩; exact ⟨W, k, by omega, hk, e⟩
      · rintro ⟨W, k, hW, hk, e⟩; exact ⟨W, by omega, k, hk, e⟩)
  refine ⟨d', h1, h2.congr fun p => ?_⟩
  constructor
  · rintro ⟨H, hH, W, k, hW, hk, e⟩; exact ⟨H, W, k, by omega, hW, hk, e⟩
  · rintro ⟨H, W, k, hH, hW, hk, e⟩; exact ⟨H, by omega, W, k, hW, hk, e⟩

/-- All sub-convolutions together write the output. -/
theorem tcRun_laid {t : Tensor} {mem : Buf} (hbd : ∀ is, InShape t.shape is → 0 ≤ t.addr is ∧ t.addr is < mem.size)
    (hj : ∀ is js, InShape t.shape is → InShape t.shape js → t.addr is = t.addr js → is = js) {oh ow oc : Dim} (e : t.dims = [oh, ow, oc]) (hu : oc.stride = 1)
    (val : List Int → Int) (value : ConvCfg → Prv → WPrv → Int → Int → Int → Option Int) (c : ConvCfg) (i : Prv) (w : WPrv)
    (hh : TcIn i.height w.height c.sh c.pt oh.shape) (hw : TcIn i.width w.width c.sw c.pl ow.shape)
    (o : Prv) (ho : prvHwc t = some o)
    (hval : ∀ a b Y X k : Nat, (a : Int) < c.sh → (b : Int) < c.sw → (Y : Int) < (tcSub c i w o a b).o.height →
      (X : Int) < (tcSub c i w o a b).o.width → (k : Int) < oc.shape →
      value (tcSub c i w o a b).c (tcSub c i w o a b).i (tcSub c i w o a b).w Y X k =
        some (val [(tcAxis i.height w.height c.sh c.pt oh.shape (ceilDiv (w.height - a) c.sh) a).outOff + c.sh * Y,
          (tcAxis i.width w.width c.sw c.pl ow.shape (ceilDiv (w.width - b) c.sw) b).outOff + c.sw * X, k])) :
    ∃ mem', tcRun value c i w o mem = some mem' ∧ t.Writes val mem mem' := by
  have so : t.shape = [oh.shape, ow.shape, oc.shape] := by simp [Tensor.shape, e]
  simp only [prvHwc, e, Option.some.injEq] at ho
  subst ho
  let o : Prv := { ptr := t.base, width := ow.shape, height := oh.shape, ch := oc.shape, col := ow.stride, row := oh.stride }
  let fh := fun a : Nat => tcAxis i.height w.height c.sh c.pt oh.shape (ceilDiv (w.height - a) c.sh) a
  let fw := fun b : Nat => tcAxis i.width w.width c.sw c.pl ow.shape (ceilDiv (w.width - b) c.sw) b
  let ad : Pos3 → Int := fun p => t.addr [p.1, p.2.1, p.2.2]
  let vl : Pos3 → Int := fun p => val [p.1, p.2.1, p.2.2]
  let ok : Pos3 → Prop := fun p => InShape t.shape [p.1, p.2.1, p.2.2]
  have hc : Coherent ad vl ok := by
    intro p q hp hq e
    have := hj _ _ hp hq e
    show val _ = val _
    rw [this]
  have hin : ∀ a b Y X k : Nat, (a : Int) < c.sh → (b : Int) < c.sw → (Y : Int) < (fh a).outSize → (X : Int) < (fw b).outSize →
      (k : Int) < oc.shape → InShape t.shape [(fh a).outOff + c.sh * Y, (fw b).outOff + c.sw * X, k] := by
    intro a b Y X k ha hb hY hX hk
    obtain ⟨D, O⟩ := tcAxis_out hh (off := a) (by omega) ha
    obtain ⟨D', O'⟩ := tcAxis_out hw (off := b) (by omega) hb
    have a1 : 0 ≤ (fh a).outOff := O.o0
    have a2 : (fh a).outOff + c.sh * Y < oh.shape := (O.iff Y).1 hY
    have b1 : 0 ≤ (fw b).outOff := O'.o0
    have b2 : (fw b).outOff + c.sw * X < ow.shape := (O'.iff X).1 hX
    have s1 := hh.s1; have s2 := hw.s1
    have m1 : 0 ≤ c.sh * Y := Int.mul_nonneg (by omega) (by omega)
    have m2 : 0 ≤ c.sw * X := Int.mul_nonneg (by omega) (by omega)
    rw [so]
    exact ⟨⟨by omega, a2⟩, ⟨by omega, b2⟩, ⟨by omega, hk⟩, trivial⟩
  unfold tcRun
  obtain ⟨d', h1, h2⟩ := forRange_emits hc c.sh.toNat (fun (a : Nat) => forRange c.sw.toNat (fun (b : Nat) =>
      convLoop (value (tcSub c i w o a b).c (tcSub c i w o a b).i (tcSub c i w o a b).w) (tcSub c i w o a b).o o.ch))
    (fun a p => ∃ b Y X k : Nat, (b : Int) < c.sw ∧ (Y : Int) < (fh a).outSize ∧ (X : Int) < (fw b).outSize ∧ (k : Int) < oc.shape ∧
      p = ((fh a).outOff + c.sh * Y, (fw b).outOff + c.sw * X, (k : Int))) mem (by
      rintro a p ha ⟨b, Y, X, k, hb, hY, hX, hk, rfl⟩
      exact hin a b Y X k (by omega) hb hY hX hk) (by
      intro a d1 ha hd1
      obtain ⟨d2, a1, a2⟩ := forRange_emits hc c.sw.toNat (fun (b : Nat) =>
          convLoop (value (tcSub c i w o a b).c (tcSub c i w o a b).i (tcSub c i w o a b).w) (tcSub c i w o a b).o o.ch)
        (fun b p => ∃ Y X k : Nat, (Y : Int) < (fh a).outSize ∧ (X : Int) < (fw b).outSize ∧ (k : Int) < oc.shape ∧
          p = ((fh a).outOff + c.sh * Y, (fw b).outOff + c.sw * X, (k : Int))) d1 (by
          rintro b p hb ⟨Y, X, k, hY, hX, hk, rfl⟩
          exact hin a b Y X k (by omega) (by omega) hY hX hk) (by
          intro b d2 hb hd2
          exact convLoop_emits hbd hj val _ (tcSub c i w o a b).o oc.shape
            (fun Y X k => ((fh a).outOff + c.sh * Y, (fw b).outOff + c.sw * X, (k : Int)))
            (fun Y X k hY hX hk => ⟨hin a b Y X k (by omega) (by omega) hY hX hk, by
              show t.base + oh.stride * (fh a).outOff + ow.stride * (fw b).outOff + oh.stride * c.sh * Y + ow.stride * c.sw * X + k = _
              simp only [Tensor.addr, Tensor.strides, e, List.map_cons, List.map_nil, offset, hu]
              ring, hval a b Y X k (by omega) (by omega) hY hX hk⟩) d2 (by omega))
      refine ⟨d2, a1, a2.congr fun p => ?_⟩
      constructor
      · rintro ⟨b, hb, Y, X, k, h⟩; exact ⟨b, Y, X, k, by omega, h⟩
      · rintro ⟨b, Y, X, k, hb, h⟩; exact ⟨b, by omega, Y, X, k, h⟩)
  refine ⟨d', h1, h2.size, ?_, ?_⟩
  · intro is his
    rw [so] at his
    match is, his with
    | [y, x, k], ⟨⟨y0, y1⟩, ⟨x0, x1⟩, ⟨k0, k1⟩, _⟩ =>
      obtain ⟨a, ha, Y, hY, rfl⟩ := tcAxis_cover hh y0 y1
      obtain ⟨b, hb, X, hX, rfl⟩ := tcAxis_cover hw x0 x1
      exact h2.hit (_, _, k) ⟨a, by omega, b, Y, X, k.toNat, hb, hY, hX, by omega, by rw [Int.toNat_of_nonneg k0]⟩
  · intro q hq
    apply h2.frame
    rintro p ⟨a, ha, b, Y, X, k, hb, hY, hX, hk, rfl⟩
    exact hq _ (hin a b Y X k (by omega) hb hY hX hk)

theorem tcRun_writes {t : Tensor} {mem : Buf} (hv : t.Valid mem) {oh ow oc : Dim} (e : t.dims = [oh, ow, oc]) (hu : oc.stride = 1)
    (val : List Int → Int) (value : ConvCfg → Prv → WPrv → Int → Int → Int → Option Int) (c : ConvCfg) (i : Prv) (w : WPrv)
    (hh : TcIn i.height w.height c.sh c.pt oh.shape) (hw : TcIn i.width w.width c.sw c.pl ow.shape)
    (o : Prv) (ho : prvHwc t = some o)
    (hval : ∀ a b Y X k : Nat, (a : Int) < c.sh → (b : Int) < c.sw → (Y : Int) < (tcSub c i w o a b).o.height →
      (X : Int) < (tcSub c i w o a b).o.width → (k : Int) < oc.shape →
      value (tcSub c i w o a b).c (tcSub c i w o a b).i (tcSub c i w o a b).w Y X k =
        some (val [(tcAxis i.height w.height c.sh c.pt oh.shape (ceilDiv (w.height - a) c.sh) a).outOff + c.sh * Y,
          (tcAxis i.width w.width c.sw c.pl ow.shape (ceilDiv (w.width - b) c.sw) b).outOff + c.sw * X, k])) :
    ∃ mem', tcRun value c i w o mem = some mem' ∧ t.Writes val mem mem' :=
  tcRun_laid (fun _ h => hv.inBounds h) (fun _ _ h h' e => c09_accepted_no_alias t hv.accepted _ _ h h' (by unfold Tensor.addr at e; omega))
    e hu val value c i w hh hw o ho hval

end Mli
