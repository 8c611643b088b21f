import Verif.Model.DcLayer
import Verif.Lemmas.LayerRuntime
import Verif.Lemmas.TransposeRun
import Mathlib.Algebra.Order.BigOperators.Group.Finset
import Mathlib.Algebra.BigOperators.Ring.Finset
import Mathlib.Tactic.Linarith

/-! # A layer with a transposed convolution: the iterator without the group -/

namespace Mli.Rt

open Mli Mli.Iter Mli.Spec

/-- One dimension after dropping an axis: the increments are exchanged. -/
def swapInc (d : Int) (c : DimCfg) : DimCfg := { c with order := d, inc := c.firstInc, firstInc := c.inc }

theorem swap_plain {c : DimCfg} (h : c.firstInc = c.inc) (n d j : Int) :
    tileSize n (swapInc d c) ⟨posOf (swapInc d c) j, j⟩ = tileSize n c ⟨posOf c j, j⟩ := by
  have : posOf (swapInc d c) j = posOf c j := by
    unfold posOf swapInc
    simp only [h]
  rw [this]
  rfl

/-- The exchanged increments change the positions of the tiles, but not their sizes. -/
theorem TcSplit.swap {n t k s p pe out : Int} (d d' : Int) (h : TcSplit n t k s p pe out) (j : Int) (hj : 0 ≤ j ∧ j < (axCfg d n t k).count) {e : DimCfg}
    (he : e = kernelDim (axCfg d n t k) out k s p) :
    tileSize out (swapInc d' e) ⟨posOf (swapInc d' e) j, j⟩ = tileSize out e ⟨posOf e j, j⟩ := by
  have hcnt : e.count = (axCfg d n t k).count := by rw [he]; rfl
  show (if j = e.count - 1 then e.lastSize else if j = 0 then e.firstSize else min (u32 (out - u32 (posOf (swapInc d' e) j))) e.size) =
    (if j = e.count - 1 then e.lastSize else if j = 0 then e.firstSize else min (u32 (out - u32 (posOf e j))) e.size)
  by_cases h1 : j = e.count - 1
  · rw [if_pos h1, if_pos h1]
  · rw [if_neg h1, if_neg h1]
    by_cases h2 : j = 0
    · rw [if_pos h2, if_pos h2]
    · rw [if_neg h2, if_neg h2]
      obtain ⟨hn, ho⟩ := h.out_lt
      have g1 := h.tile
      have g2 := h.hp
      have g3 := h.he
      have g4 := h.hout
      have g5 := h.small
      have g6 := h.s1
      rcases h.cases d with ⟨c1, c2⟩ | ⟨c1, rfl⟩
      · omega
      · obtain ⟨q, r, f1, f2, f3, f4, f5, e1, e2, e3, e4, e5, e6, e7⟩ := tileDim_facts d h.tileOk
        have hr : k ≤ r := by
          by_contra hlt
          have : (axCfg d n t k).count = 1 := by
            unfold axCfg
            simp only
            rw [if_pos (by omega)]
          omega
        have K := kernelDim_facts d h.kern
        simp only at K
        rw [c1] at he hj hcnt
        rw [← he] at K
        obtain ⟨-, -, k1, k2, -, -, k3, -⟩ := K
        rw [Int.sub_zero] at k1
        have p1 : posOf e j = t * k * j - p := by
          unfold posOf
          rw [if_neg h2, k1, k2]; ring
        have p2 : posOf (swapInc d' e) j = t * k * j - (j - 1) * p := by
          unfold posOf
          rw [if_neg h2]
          show e.inc + (j - 1) * e.firstInc = _
          rw [k1, k2]; ring
        have hq : j + 1 ≤ q := by omega
        have a1 : t * k * (j + 1) ≤ t * k * q := Int.mul_le_mul_of_nonneg_left hq (Int.mul_nonneg (by omega) (by omega))
        have a2 : k * k ≤ r * k := Int.mul_le_mul_of_nonneg_right hr (by omega)
        have a3 : 0 ≤ (j - 1) * p := Int.mul_nonneg (by omega) (by omega)
        have a4 : p + pe ≤ k * k := by nlinarith
        have a5 : (n - 1) * k + k = t * k * q + r * k := by
          have : n = t * q + r := by omega
          rw [this]; ring
        have a6 : t * k * (j + 1) = t * k * j + t * k := by ring
        have a7 : (t - 1) * k + k = t * k := by ring
        have a8 : (j - 1) * p ≤ (j - 1) * (t * k) := Int.mul_le_mul_of_nonneg_left (by
          have : 1 * k ≤ t * k := Int.mul_le_mul_of_nonneg_right g1.1 (by omega)
          omega) (by omega)
        have a9 : (j - 1) * (t * k) = t * k * j - t * k := by ring
        have b1 : 1 * k ≤ t * k := Int.mul_le_mul_of_nonneg_right g1.1 (by omega)
        rw [p1, p2, k3, u32_id (x := t * k * j - p) ⟨by nlinarith, by omega⟩, u32_id (x := t * k * j - (j - 1) * p) ⟨by omega, by omega⟩,
          u32_id (x := out - (t * k * j - p)) ⟨by omega, by omega⟩, u32_id (x := out - (t * k * j - (j - 1) * p)) ⟨by omega, by omega⟩]
        omega

/-- An iterator that goes through four dimensions in their own order, in round `n`. -/
theorem four_at {c0 c1 c2 c3 : DimCfg} (q0 : c0.order = 0) (q1 : c1.order = 1) (q2 : c2.order = 2) (q3 : c3.order = 3)
    (hpos : ∀ c ∈ [c0, c1, c2, c3], 1 ≤ c.count) (s0 s1 s2 s3 : Int) (strides : List Int) (n : Nat) {j0 j1 j2 j3 : Int}
    (e0 : j0 = n % c0.count) (e1 : j1 = n / c0.count % c1.count) (e2 : j2 = n / c0.count / c1.count % c2.count)
    (e3 : j3 = n / c0.count / c1.count / c2.count % c3.count) :
    ((TIt.start [c0, c1, c2, c3] [s0, s1, s2, s3] strides).at n).sizes = [tileSize s0 c0 ⟨posOf c0 j0, j0⟩, tileSize s1 c1 ⟨posOf c1 j1, j1⟩,
      tileSize s2 c2 ⟨posOf c2 j2, j2⟩, tileSize s3 c3 ⟨posOf c3 j3, j3⟩] := by
  subst e0 e1 e2 e3
  have st : ((TIt.start [c0, c1, c2, c3] [s0, s1, s2, s3] strides).at n).st = stateAt [c0, c1, c2, c3] n := nextN_eq hpos n
  show (subTensor [s0, s1, s2, s3] [c0, c1, c2, c3] ((TIt.start [c0, c1, c2, c3] [s0, s1, s2, s3] strides).at n).st).2 = _
  rw [st]
  simp [stateAt, subTensor, q0, q1, q2, q3]

/-- The iterator of the parameters follows the channels. -/
theorem par3_at (c0 c1 c2 c3 : DimCfg) (hpos : ∀ c ∈ [c0, c1, c2, c3], 1 ≤ c.count) (oc : Int) (inp : TIt) (n : Nat) {j3 : Int}
    (e3 : j3 = n / c0.count / c1.count / c2.count % c3.count) :
    ((parIt [c0, c1, c2, c3] oc 3).at n).sizes = [tileSize oc c3 ⟨posOf c3 j3, j3⟩] ∧
      maxParams false 3 inp (parIt [c0, c1, c2, c3] oc 3) = max c3.firstSize c3.size := by
  subst e3
  let b : DimCfg → DimCfg := fun c => { order := -1, count := c.count, firstInc := 0, inc := 0, lastInc := 0, firstSize := 0, size := 0, lastSize := 0, code := 0 }
  let e : DimCfg → DimCfg := fun c => { c with order := 0 }
  have hb1 : ∀ c, (b c).order = -1 := fun _ => rfl
  have hb2 : ∀ c, (b c).count = c.count := fun _ => rfl
  have he1 : ∀ c, (e c).order = 0 := fun _ => rfl
  have he2 : ∀ c, (e c).count = c.count := fun _ => rfl
  have he3 : ∀ c j, posOf (e c) j = posOf c j := fun _ _ => rfl
  have he4 : ∀ c n s, tileSize n (e c) s = tileSize n c s := fun _ _ _ => rfl
  have he5 : ∀ c, (e c).firstSize = c.firstSize := fun _ => rfl
  have he6 : ∀ c, (e c).size = c.size := fun _ => rfl
  have hp : parIt [c0, c1, c2, c3] oc 3 = TIt.start [b c0, b c1, b c2, e c3] [oc] [1] := by
    simp [parIt, followCfg, disableTiling, zeroInc, updateOrder, b, e, show List.range 4 = [0, 1, 2, 3] from rfl]
  have k0 := hpos c0 (by simp)
  have k1 := hpos c1 (by simp)
  have k2 := hpos c2 (by simp)
  have k3 := hpos c3 (by simp)
  have hk : ∀ c ∈ [b c0, b c1, b c2, e c3], 1 ≤ c.count := by
    simp only [List.mem_cons, List.not_mem_nil, or_false]
    rintro c (rfl | rfl | rfl | rfl) <;> assumption
  have sw : ((TIt.start [b c0, b c1, b c2, e c3] [oc] [1]).at n).st = stateAt [b c0, b c1, b c2, e c3] n := nextN_eq hk n
  rw [hp]
  clear_value b e
  refine ⟨?_, ?_⟩
  · show (subTensor [oc] [b c0, b c1, b c2, e c3] ((TIt.start [b c0, b c1, b c2, e c3] [oc] [1]).at n).st).2 = _
    rw [sw]
    simp [stateAt, subTensor, hb1, hb2, he1, he2, he3, he4]
  · simp [maxParams, TIt.start, he5, he6]

namespace DcRun

/-- Dimensions and strides of the output without the group. -/
def oshape4 (R : DcRun) : List Int := [R.nb, R.oh, R.ow, R.oc]
def lo4 (R : DcRun) : List Int := R.lo.eraseIdx 3
def gos4 (R : DcRun) : List Int := R.gos.eraseIdx 3

end DcRun

/-- The iterators of RESCALE and CLIP have the tiles of the transposed convolution, and the parameter iterator has their channels. -/
theorem DcOk.at4 {R : DcRun} (h : DcOk R) {n : Nat} {b oy osy iy isy pt ox osx ix isx pl k0 kn : Int}
    (C : DcCell R n b oy osy iy isy pt ox osx ix isx pl k0 kn) :
    ((dropGroup R.out).at n).sizes = [1, osy, osx, kn] ∧ ((parIt (dropGroup R.out).cfg R.oc 3).at n).sizes = [kn] ∧
      maxParams false 3 (dropGroup R.out) (parIt (dropGroup R.out).cfg R.oc 3) = R.t4 := by
  have hb := h.batch
  have hch := h.chTile
  obtain ⟨ebase, eout⟩ := h.cfgs
  have kp0 : KernOk R.nb 1 0 R.nb 1 1 0 := kernOk_plain (by omega) hb.1 hb.2
  have kp3 : KernOk 1 1 0 1 1 1 0 := kernOk_plain (by omega) (by omega) (by omega)
  have n0 : 1 ≤ (tileDim 0 R.nb 1 0).count := by obtain ⟨q, r, h1, h2, h3, h4, h5, e1, -⟩ := tileDim_facts 0 kp0.otile; omega
  have n3 : (tileDim 3 1 1 0).count = 1 := by decide
  have n4 : 1 ≤ (tileDim 4 R.oc R.t4 0).count := by obtain ⟨q, r, h1, h2, h3, h4, h5, e1, -⟩ := tileDim_facts 4 hch; omega
  have n1 := axCount_pos 1 h.rows
  have n2 := axCount_pos 2 h.cols
  obtain ⟨j0, j1, j2, j3, j4, J⟩ : ∃ j0 j1 j2 j3 j4, Idx5 n (tileDim 0 R.nb 1 0).count (axCfg 1 R.ih R.t1 R.kh).count (axCfg 2 R.iw R.t2 R.kw).count
      (tileDim 3 1 1 0).count (tileDim 4 R.oc R.t4 0).count j0 j1 j2 j3 j4 := ⟨_, _, _, _, _, rfl, rfl, rfl, rfl, rfl⟩
  obtain ⟨r0, r1, r2, r3, r4⟩ := idx5_range J n0 n1 n2 (by omega) n4
  have C' := h.cellAt n J rfl rfl
  have ez := C.osz.symm.trans C'.osz
  simp only [List.cons.injEq, and_true, true_and] at ez
  obtain ⟨z1, z2, z3⟩ := ez
  have W0 := winAt 0 kp0 j0 r0 rfl rfl
  obtain ⟨p0, s0⟩ := win_plain W0
  have hs0 : tileSize R.nb (tileDim 0 R.nb 1 0) ⟨posOf (tileDim 0 R.nb 1 0) j0, j0⟩ = 1 := by have := W0.o1; have := W0.o2; omega
  have K0 := kernelDim_facts 0 kp0
  simp only at K0
  obtain ⟨_, _, -, -, -, -, -, t1, t2, t3, -, t5, t6, -⟩ := tileDim_facts 4 hch
  have x1 := h.rows.swap 1 1 j1 r1 rfl
  have x2 := h.cols.swap 2 2 j2 r2 rfl
  have x3 : tileSize R.oc (swapInc 3 (tileDim 4 R.oc R.t4 0)) ⟨posOf (swapInc 3 (tileDim 4 R.oc R.t4 0)) j4, j4⟩ = _ :=
    swap_plain (by rw [t2, t3, Int.sub_zero]) R.oc 3 j4
  have x0 : tileSize R.nb (swapInc 0 (kernelDim (tileDim 0 R.nb 1 0) R.nb 1 1 0)) ⟨posOf (swapInc 0 (kernelDim (tileDim 0 R.nb 1 0) R.nb 1 1 0)) j0, j0⟩ = _ :=
    swap_plain (by rw [K0.2.2.1, K0.2.2.2.1]; ring) R.nb 0 j0
  have hd : dropGroup R.out = TIt.start [swapInc 0 (kernelDim (tileDim 0 R.nb 1 0) R.nb 1 1 0), swapInc 1 (kernelDim (axCfg 1 R.ih R.t1 R.kh) R.oh R.kh R.c.sh R.c.pt),
      swapInc 2 (kernelDim (axCfg 2 R.iw R.t2 R.kw) R.ow R.kw R.c.sw R.c.pl), swapInc 3 (tileDim 4 R.oc R.t4 0)] [R.nb, R.oh, R.ow, R.oc] R.lo4 := by
    unfold dropGroup
    rw [eout]
    rfl
  have hpos : ∀ c ∈ [swapInc 0 (kernelDim (tileDim 0 R.nb 1 0) R.nb 1 1 0), swapInc 1 (kernelDim (axCfg 1 R.ih R.t1 R.kh) R.oh R.kh R.c.sh R.c.pt),
      swapInc 2 (kernelDim (axCfg 2 R.iw R.t2 R.kw) R.ow R.kw R.c.sw R.c.pl), swapInc 3 (tileDim 4 R.oc R.t4 0)], 1 ≤ c.count := by
    simp only [List.mem_cons, List.not_mem_nil, or_false]
    rintro c (rfl | rfl | rfl | rfl)
    exacts [n0, n1, n2, n4]
  obtain ⟨i0, i1, i2, i3, i4⟩ := J
  rw [n3, Int.ediv_one] at i4
  rw [hd]
  have A := four_at (c0 := swapInc 0 (kernelDim (tileDim 0 R.nb 1 0) R.nb 1 1 0)) (c1 := swapInc 1 (kernelDim (axCfg 1 R.ih R.t1 R.kh) R.oh R.kh R.c.sh R.c.pt))
    (c2 := swapInc 2 (kernelDim (axCfg 2 R.iw R.t2 R.kw) R.ow R.kw R.c.sw R.c.pl)) (c3 := swapInc 3 (tileDim 4 R.oc R.t4 0)) rfl rfl rfl rfl hpos
    R.nb R.oh R.ow R.oc R.lo4 n i0 i1 i2 i4
  have B := par3_at _ _ _ _ hpos R.oc (TIt.start [swapInc 0 (kernelDim (tileDim 0 R.nb 1 0) R.nb 1 1 0),
    swapInc 1 (kernelDim (axCfg 1 R.ih R.t1 R.kh) R.oh R.kh R.c.sh R.c.pt), swapInc 2 (kernelDim (axCfg 2 R.iw R.t2 R.kw) R.ow R.kw R.c.sw R.c.pl),
    swapInc 3 (tileDim 4 R.oc R.t4 0)] [R.nb, R.oh, R.ow, R.oc] R.lo4) n i4
  refine ⟨?_, ?_, ?_⟩
  · rw [A, x0, x1, x2, x3, s0, hs0, z1, z2, z3]
  · rw [z3, ← x3]
    exact B.1
  · refine B.2.trans ?_
    show max (tileDim 4 R.oc R.t4 0).firstSize (tileDim 4 R.oc R.t4 0).size = _
    rw [t5, t6]
    omega

/-! ## The range of the sums -/

/-- Each row of the kernel meets at most one row of the input. -/
theorem scatter_hits (n k : Nat) (s p y : Int) (hs : 1 ≤ s) :
    ∑ i ∈ Finset.range n, ∑ j ∈ Finset.range k, (if (i : Int) * s + j - p = y then (1 : Int) else 0) ≤ k := by
  rw [Finset.sum_comm]
  have : ∀ j ∈ Finset.range k, ∑ i ∈ Finset.range n, (if (i : Int) * s + j - p = y then (1 : Int) else 0) ≤ 1 := by
    intro j _
    rw [← Finset.sum_filter, Finset.sum_const, nsmul_eq_mul, mul_one]
    have : (Finset.filter (fun i : Nat => (i : Int) * s + j - p = y) (Finset.range n)).card ≤ 1 := by
      rw [Finset.card_le_one]
      intro a ha b hb
      have ha := (Finset.mem_filter.mp ha).2
      have hb := (Finset.mem_filter.mp hb).2
      have e : ((a : Int) - b) * s = 0 := by rw [Int.sub_mul]; omega
      rcases Int.mul_eq_zero.mp e with h | h <;> omega
    exact_mod_cast this
  refine (Finset.sum_le_sum this).trans ?_
  simp

theorem scatter_abs {ih iw kh kw ic : Int} {X W : Int → Int → Int → Int} {sh sw pt pl y x B : Int} (h1 : 1 ≤ sh) (h2 : 1 ≤ sw) (hB : 0 ≤ B)
    (h3 : 0 ≤ kh) (h4 : 0 ≤ kw) (h5 : 0 ≤ ic)
    (hb : ∀ r q i j c, 0 ≤ r ∧ r < ih → 0 ≤ q ∧ q < iw → 0 ≤ i ∧ i < kh → 0 ≤ j ∧ j < kw → 0 ≤ c ∧ c < ic → |X r q c * W i j c| ≤ B) :
    |scatterSum ih iw kh kw ic X W sh sw pt pl y x| ≤ kh * kw * (ic * B) := by
  have st : |scatterSum ih iw kh kw ic X W sh sw pt pl y x| ≤
      (∑ i ∈ Finset.range ih.toNat, ∑ j ∈ Finset.range kh.toNat, (if (i : Int) * sh + j - pt = y then (1 : Int) else 0)) *
      (∑ i ∈ Finset.range iw.toNat, ∑ j ∈ Finset.range kw.toNat, (if (i : Int) * sw + j - pl = x then (1 : Int) else 0)) * (ic * B) := by
    unfold scatterSum
    rw [Finset.sum_mul, Finset.sum_mul]
    refine (Finset.abs_sum_le_sum_abs _ _).trans (Finset.sum_le_sum fun r hr => ?_)
    rw [Finset.sum_mul, Finset.sum_mul]
    refine (Finset.abs_sum_le_sum_abs _ _).trans (Finset.sum_le_sum fun i hi => ?_)
    rw [Finset.mul_sum, Finset.sum_mul]
    refine (Finset.abs_sum_le_sum_abs _ _).trans (Finset.sum_le_sum fun q hq => ?_)
    rw [Finset.mul_sum, Finset.sum_mul]
    refine (Finset.abs_sum_le_sum_abs _ _).trans (Finset.sum_le_sum fun j hj => ?_)
    have hr := Finset.mem_range.mp hr
    have hi := Finset.mem_range.mp hi
    have hq := Finset.mem_range.mp hq
    have hj := Finset.mem_range.mp hj
    have n1 : 0 ≤ ic * B := Int.mul_nonneg h5 hB
    have one : |∑ c ∈ Finset.range ic.toNat, X r q c * W i j c| ≤ ic * B := by
      refine (Finset.abs_sum_le_sum_abs _ _).trans ((Finset.sum_le_sum (g := fun _ => B) fun c hc => ?_).trans ?_)
      · have hc := Finset.mem_range.mp hc
        exact hb r q i j c (by omega) (by omega) (by omega) (by omega) (by omega)
      · rw [Finset.sum_const, Finset.card_range, nsmul_eq_mul, Int.toNat_of_nonneg h5]
    by_cases c1 : (r : Int) * sh + i - pt = y
    · by_cases c2 : (q : Int) * sw + j - pl = x
      · rw [if_pos ⟨c1, c2⟩, if_pos c1, if_pos c2]
        simpa using one
      · rw [if_neg (fun c => c2 c.2), if_neg c2]
        simp
    · rw [if_neg (fun c => c1 c.1), if_neg c1]
      simp
  refine st.trans ?_
  have a1 := scatter_hits ih.toNat kh.toNat sh pt y h1
  have a2 := scatter_hits iw.toNat kw.toNat sw pl x h2
  rw [Int.toNat_of_nonneg h3] at a1
  rw [Int.toNat_of_nonneg h4] at a2
  refine mul_le_mul_of_nonneg_right (mul_le_mul a1 a2 ?_ h3) (Int.mul_nonneg h5 hB)
  exact Finset.sum_nonneg fun _ _ => Finset.sum_nonneg fun _ _ => by split <;> omega

theorem kernel_abs {kh kw ic : Int} {W : Int → Int → Int → Int} {B : Int} (h3 : 0 ≤ kh) (h4 : 0 ≤ kw) (h5 : 0 ≤ ic)
    (hb : ∀ i j c, 0 ≤ i ∧ i < kh → 0 ≤ j ∧ j < kw → 0 ≤ c ∧ c < ic → |W i j c| ≤ B) : |kernelSum kh kw ic W| ≤ kh * (kw * (ic * B)) := by
  have c : ∀ {n : Int} {C : Int} {f : Nat → Int}, 0 ≤ n → (∀ i : Nat, (i : Int) < n → |f i| ≤ C) → |∑ i ∈ Finset.range n.toNat, f i| ≤ n * C := by
    intro n C f hn hf
    refine (Finset.abs_sum_le_sum_abs _ _).trans ((Finset.sum_le_sum (g := fun _ => C) fun i hi => ?_).trans ?_)
    · have hi := Finset.mem_range.mp hi
      exact hf i (by omega)
    · rw [Finset.sum_const, Finset.card_range, nsmul_eq_mul, Int.toNat_of_nonneg hn]
  unfold kernelSum
  exact c h3 fun i hi => c h4 fun j hj => c h5 fun k hk => hb i j k (by omega) (by omega) (by omega)

/-- The sums of an accepted run are numbers of 32 bits. -/
theorem DcOk.value_range {R : DcRun} (h : DcOk R) {b y x k : Int} (hb : 0 ≤ b ∧ b < R.nb) (hk : 0 ≤ k ∧ k < R.oc) : InRange 32 (R.value b y x k) := by
  have ht := h.taps
  have g1 := h.rows.s1
  have g2 := h.cols.s1
  have g3 := h.inch
  have g4 := h.rows.s1; have g4' := h.rows.tile
  have g5 := h.cols.sk; have g6 := h.rows.sk
  have zi := h.zin
  have wr : ∀ i j c, 0 ≤ i ∧ i < R.kh → 0 ≤ j ∧ j < R.kw → 0 ≤ c ∧ c < R.ic → |R.weight i j c k| ≤ 128 := by
    intro i j c h1 h2 h3
    obtain ⟨l, u⟩ := (h.wb [0, i, j, c, k] ⟨⟨by omega, by omega⟩, h1, h2, h3, hk, trivial⟩).2
    simp only [lo, hi] at l u
    unfold DcRun.weight
    rw [abs_le]
    omega
  have a := scatter_abs (ih := R.ih) (iw := R.iw) (X := fun r q c => R.input b r q c - R.zx) (W := fun i j c => R.weight i j c k) (pt := R.c.pt) (pl := R.c.pl)
    (y := y) (x := x) (B := 255 * 128) g1 g2 (by omega) (by omega) (by omega) (by omega) (kh := R.kh) (kw := R.kw) (ic := R.ic) (by
      intro r q i j c h1 h2 h3 h4 h5
      have w := wr i j c h3 h4 h5
      obtain ⟨l, u⟩ := (h.inb [b, r, q, 0, c] ⟨hb, h1, h2, ⟨by omega, by omega⟩, h5, trivial⟩).2
      obtain ⟨l', u'⟩ := zi
      rw [abs_mul]
      refine mul_le_mul ?_ w (abs_nonneg _) (by omega)
      simp only [lo, hi] at l u l' u'
      unfold DcRun.input
      rw [abs_le]
      omega)
  have e := kernel_abs (kh := R.kh) (kw := R.kw) (ic := R.ic) (W := fun i j c => R.weight i j c k) (B := 128) (by omega) (by omega) (by omega) wr
  have z : |R.zx| ≤ 128 := by
    obtain ⟨l', u'⟩ := zi
    simp only [lo, hi] at l' u'
    rw [abs_le]
    omega
  have t : |R.value b y x k| ≤ 43690 * (255 * 128 + 128 * 128) := by
    unfold DcRun.value
    refine (abs_add_le _ _).trans ?_
    rw [abs_mul]
    have m : |R.zx| * |kernelSum R.kh R.kw R.ic fun i j c => R.weight i j c k| ≤ 128 * (R.kh * (R.kw * (R.ic * 128))) :=
      mul_le_mul z e (abs_nonneg _) (by omega)
    have e1 : R.kh * R.kw * (R.ic * (255 * 128)) = R.ic * (R.kh * R.kw) * (255 * 128) := by ring
    have e2 : 128 * (R.kh * (R.kw * (R.ic * 128))) = R.ic * (R.kh * R.kw) * (128 * 128) := by ring
    omega
  rw [abs_le] at t
  constructor <;> simp only [lo, hi] <;> omega

/-! ## All rounds -/

/-- A value that is known of each element of a tile. -/
def DcTileHolds (R : DcRun) (buf : Buf) (base b oy osy ox osx k0 kn : Int) (val : Int → Int → Int → Int → Int) : Prop :=
  ∀ y x k, InShape [osy, osx, kn] [y, x, k] → buf.get (base + at5 R.lo y x k) = val b (y + oy) (x + ox) (k + k0)

/-- The caller before the first round. -/
def DcRun.layer (R : DcRun) (map : MapObj) (clip : ClipObj) (mid pm cp : Buf) : DcLayerHost :=
  ⟨(R.start 8 8 32).obj, map, clip, R.lin, R.lwt, R.lz, R.lout, mid, pm, cp, R.gout, .ok⟩

theorem DcOk.lo5 {R : DcRun} (h : DcOk R) : ∃ a0 a1 a2 a3 a4, R.lo = [a0, a1, a2, a3, a4] :=
  ⟨_, _, _, _, _, list5 (by rw [h.oplace.len, h.olen])⟩

theorem DcOk.off4 {R : DcRun} (h : DcOk R) (r q k : Int) : offset R.lo4 [0, r, q, k] = at5 R.lo r q k := by
  obtain ⟨a0, a1, a2, a3, a4, elo⟩ := h.lo5
  unfold DcRun.lo4 at5
  rw [elo]
  simp [offset]

theorem DcOk.lo4_len {R : DcRun} (h : DcOk R) : R.lo4.length = 4 := by
  obtain ⟨a0, a1, a2, a3, a4, elo⟩ := h.lo5
  unfold DcRun.lo4
  rw [elo]
  rfl

theorem DcOk.cell_in {R : DcRun} (h : DcOk R) {n : Nat} (hn : n < R.rounds) {b oy osy iy isy pt ox osx ix isx pl k0 kn : Int}
    (C : DcCell R n b oy osy iy isy pt ox osx ix isx pl k0 kn) {y : List Int} (hy : InShape [1, osy, osx, 1, kn] y) :
    InShape R.otiles y ∧ InShape R.oshape (addPos y [b, oy, ox, 0, k0]) := by
  refine ⟨inShape_mono (s := (R.out.at n).sizes) (by rw [C.osz, h.olen]; rfl) (fun d hd => h.ofits n d hn (by rw [h.olen] at hd; exact hd)) (by rw [C.osz]; exact hy), ?_⟩
  have := h.seq.global (n := n) (y := y) (by rw [C.osz]; exact hy)
  rwa [C.opos] at this

theorem dc_layer_run {R : DcRun} (h : DcOk R) (hg : R.gos.length = 5) (m : Rnd) (map : MapObj) (clip : ClipObj) (mid pm cp enc : Buf) (N bm bc : Int)
    (hm0 : map = map.at 0) (hm1 : ∀ n, (map.at n).update = map.at (n + 1))
    (hc0 : clip = clip.at 0) (hc1 : ∀ n, (clip.at n).update = clip.at (n + 1)) (hbc : clip.tout.base = bc)
    (room : Place R.otiles R.lo bc mid.size) (mval : Int → Int → Int → Int → Int) (cl : Int → Int)
    (hmap : ∀ (n : Nat) (b oy osy iy isy pt ox osx ix isx pl k0 kn : Int), n < R.rounds → DcCell R n b oy osy iy isy pt ox osx ix isx pl k0 kn →
      ∀ pm' l d : Buf, pm'.size = pm.size → l.size = R.lout.size → d.size = mid.size →
      DcTileHolds R l R.bo b oy osy ox osx k0 kn R.value →
      ∃ pm'' d', fetchParams N k0 (map.at n).parCount map.pb enc map.parSizes map.parOffsets 0 pm' = some pm'' ∧
        pm''.size = pm.size ∧ (map.at n).issue m pm'' l d = some (.ok, d') ∧ d'.size = d.size ∧
        DcTileHolds R d' bm b oy osy ox osx k0 kn mval)
    (hclip : ∀ (n : Nat) (b oy osy iy isy pt ox osx ix isx pl k0 kn : Int), n < R.rounds → DcCell R n b oy osy iy isy pt ox osx ix isx pl k0 kn →
      ∀ d : Buf, d.size = mid.size → DcTileHolds R d bm b oy osy ox osx k0 kn mval →
      ∃ d', (clip.at n).issue cp d = some (.ok, d') ∧ d'.size = d.size ∧ DcTileHolds R d' bc b oy osy ox osx k0 kn (fun b y x k => cl (mval b y x k))) :
    ∃ s, DcLayerHost.run m R.gin R.gw R.gz enc N R.gos4 R.rounds (R.layer map clip mid pm cp) = some s ∧ s.status = .ok ∧
      Result R.oshape R.gos (fun x => cl (mval (x.getD 0 0) (x.getD 1 0) (x.getD 2 0) (x.getD 4 0))) R.gout s.gout := by
  have hq := h.seq
  obtain ⟨g0, g1, g2, g3, g4, ego⟩ : ∃ g0 g1 g2 g3 g4, R.gos = [g0, g1, g2, g3, g4] := ⟨_, _, _, _, _, list5 hg⟩
  have offG : ∀ b r q k : Int, offset R.gos4 [b, r, q, k] = offset R.gos [b, r, q, 0, k] := fun b r q k => by
    unfold DcRun.gos4
    rw [ego]
    simp [offset]
  let J : Nat → DcLayerHost → Prop := fun n s => s.status = .ok ∧ s.lin.size = R.lin.size ∧ s.lw.size = R.lwt.size ∧ s.lz.size = R.lz.size ∧
    s.acc.size = R.lout.size ∧ s.mid.size = mid.size ∧ s.pm.size = pm.size ∧ s.cp = cp ∧ s.gout.size = R.gout.size ∧
    DcAt R n s.conv ∧ s.map = map.at n ∧ s.clip = clip.at n
  obtain ⟨s', k1, k2, k3⟩ := tile_loop hq h.outj (fun x => cl (mval (x.getD 0 0) (x.getD 1 0) (x.getD 2 0) (x.getD 4 0)))
    (fun s => DcLayerHost.round m R.gin R.gw R.gz enc N R.gos4 s) (fun s => s.gout) J (R.layer map clip mid pm cp)
    ⟨rfl, rfl, rfl, rfl, rfl, rfl, rfl, rfl, rfl, R.atStart, hm0, hc0⟩ (by
    rintro n ⟨o, mo, co, l0, w0, z0, r0, d0, p0, q0, g0', st⟩ hn ⟨j1, j2, j3, j4, j5, j6, j7, j9, j10, H, j12, j13⟩
    simp only at j1 j2 j3 j4 j5 j6 j7 j9 j10 H j12 j13
    subst j9 j12 j13 j1
    obtain ⟨b, oy, osy, iy, isy, pt, ox, osx, ix, isx, pl, k0, kn, C⟩ := h.cell n
    obtain ⟨l1, w1, z1, r1, f1, p1, q1, i1, f2, p2, q2, i2, eso, i3⟩ := h.stage H hn C j2 j3 j4 j5
    obtain ⟨pm1, d1, m1, m2, m4, m5, m6⟩ := hmap n b oy osy iy isy pt ox osx ix isx pl k0 kn hn C p0 r1 d0 j7 (by omega) j6 i3
    obtain ⟨d2, c1, c2, c3⟩ := hclip n b oy osy iy isy pt ox osx ix isx pl k0 kn hn C d1 (by omega) m6
    have ez : ∀ (sz y : List Int), InShape sz y → addPos y (zeros sz) = y := fun sz y hy => addPos_zeros (inShape_length _ _ hy).symm
    have four : ∀ y, InShape [1, osy, osx, kn] y → ∃ r q k, y = [0, r, q, k] ∧ InShape [osy, osx, kn] [r, q, k] ∧ InShape [1, osy, osx, 1, kn] [0, r, q, 0, k] := by
      intro y hy
      match y, hy with
      | [a, r, q, k], hy =>
        obtain ⟨y0, y1, y2, y3, -⟩ := hy
        obtain rfl : a = 0 := by omega
        exact ⟨r, q, k, rfl, ⟨y1, y2, y3, trivial⟩, y0, y1, y2, ⟨by omega, by omega⟩, y3, trivial⟩
    have gpos : ∀ r q k : Int, offset R.gos4 (addPos [0, r, q, k] [b, oy, ox, k0]) = offset R.gos (addPos [0, r, q, 0, k] [b, oy, ox, 0, k0]) := fun r q k => by
      show offset R.gos4 [0 + b, r + oy, q + ox, k + k0] = offset R.gos [0 + b, r + oy, q + ox, 0 + 0, k + k0]
      simp only [offG, Int.zero_add]
    obtain ⟨g', e1, e2, e3, e4⟩ := copyBox_ok (size := [1, osy, osx, kn]) (src := d2) (sb := bc) (ss := R.lo4) (sp := zeros [1, osy, osx, kn])
      (db := 0) (ds := R.gos4) (dp := [b, oy, ox, k0]) (dst := g0')
      (fun y hy => by
        obtain ⟨r, q, k, rfl, -, h5⟩ := four y hy
        rw [ez _ _ hy, h.off4, show d2.size = mid.size by omega]
        exact room.inb _ (h.cell_in hn C h5).1)
      (fun y hy => by
        obtain ⟨r, q, k, rfl, -, h5⟩ := four y hy
        rw [Int.zero_add, j10, gpos]
        exact h.outb _ (h.cell_in hn C h5).2)
      (fun y z hy hz e => by
        obtain ⟨r, q, k, rfl, -, h5⟩ := four y hy
        obtain ⟨r', q', k', rfl, -, h5'⟩ := four z hz
        rw [Int.zero_add, Int.zero_add, gpos, gpos] at e
        have := addPos_inj (x := [0, r, q, 0, k]) (y := [0, r', q', 0, k']) (p := [b, oy, ox, 0, k0]) rfl rfl
          (h.outj _ _ (h.cell_in hn C h5).2 (h.cell_in hn C h5').2 e)
        simp only [List.cons.injEq, and_true, true_and] at this
        rw [this.1, this.2.1, this.2.2])
    simp only [Int.zero_add] at e3 e4
    refine ⟨⟨o.update, (map.at n).update, (clip.at n).update, l1, w1, z1, r1, d2, pm1, q0, g', .ok⟩, ?_,
      ⟨rfl, by simp only; omega, by simp only; omega, by simp only; omega, by simp only; omega, by simp only; omega, m2, rfl, by simp only; omega, H.next h,
        hm1 n, hc1 n⟩, e2, ?_, ?_⟩
    · unfold DcLayerHost.round
      simp only
      rw [f1, Option.bind_some, p1, Option.bind_some, q1, Option.bind_some]
      rw [eso, H.eOut, C.opos]
      show (fetchParams N k0 (map.at n).parCount map.pb enc map.parSizes map.parOffsets 0 p0).bind _ = _
      rw [m1, Option.bind_some, i1, Option.bind_some, m4, Option.bind_some, c1, Option.bind_some]
      have eb : (clip.at n).tout.base = bc := hbc
      rw [eb]
      show (copyBox [1, osy, osx, kn] d2 bc R.lo4 (zeros [1, osy, osx, kn]) 0 R.gos4 [b, oy, ox, k0] g0').map _ = _
      rw [e1]
      rfl
    · intro y hy
      rw [C.osz] at hy
      rw [C.opos]
      obtain ⟨g, r, q, e, k, rfl⟩ := inShape5 hy
      obtain ⟨y0, y1, y2, y3, y4, -⟩ := hy
      obtain rfl : g = 0 := by omega
      obtain rfl : e = 0 := by omega
      have h4 : InShape [1, osy, osx, kn] [0, r, q, k] := ⟨y0, y1, y2, y4, trivial⟩
      rw [← gpos, e3 _ h4, ez _ _ h4, h.off4, c3 r q k ⟨y1, y2, y4, trivial⟩]
      show _ = cl (mval (0 + b) (r + oy) (q + ox) (k + k0))
      rw [Int.zero_add]
    · intro a ha
      refine e4 a fun y hy => ?_
      obtain ⟨r, q, k, rfl, -, h5⟩ := four y hy
      have := ha [0, r, q, 0, k] (by rw [C.osz]; exact h5)
      rw [C.opos] at this
      rwa [gpos])
  exact ⟨s', k1, k2.1, k3⟩

end Mli.Rt
