import Verif.Model.ConvTiles
import Verif.Lemmas.PoolRuntime
import Verif.Props.ConvRuntime

/-! # One round and all rounds of a run-time convolution kernel -/

namespace Mli.Rt

open Mli Mli.Iter Mli.Spec

/-- The iterator of the output tiles. -/
def convOutIt (oshape tiles : List Int) (strides : List Int) : TIt :=
  TIt.start (tileCfg oshape tiles (List.range oshape.length) 0) oshape strides

/-- The iterator of the weights that belongs to it. -/
def convWtsIt (dw : Bool) (oshape tiles wshape strides : List Int) : TIt :=
  TIt.start (weightsCfg dw (tileCfg oshape tiles (List.range oshape.length) 0) wshape) wshape strides

theorem posOf_still (c : DimCfg) (j : Int) (h1 : c.firstInc = 0) (h2 : c.inc = 0) : posOf c j = 0 := by
  unfold posOf; rw [h1, h2]; split <;> simp

theorem tileSize_all (n : Int) (c : DimCfg) (j : Int) (h1 : c.firstSize = n) (h2 : c.size = n) (h3 : c.lastSize = n) (hn : 0 ≤ n ∧ n < 2 ^ 32) :
    tileSize n c { pos := 0, idx := j } = n := by
  unfold tileSize
  simp only
  have : u32 0 = 0 := u32_id (by omega)
  rw [h1, h2, h3, this, u32_id ⟨by omega, by omega⟩, Int.sub_zero, min_self]
  simp

/-- The weights tile of round `n`: all of the dimensions but the last, and in this the channels of the output tile. -/
theorem wts_at {nb oh ow ng oc : Int} {t0 t1 t2 t3 t4 : Int} (h : TilingOk [nb, oh, ow, ng, oc] [t0, t1, t2, t3, t4] (List.range 5) 0) (dw : Bool)
    {kh kw ic : Int} (h1 : 0 ≤ kh ∧ kh < 2 ^ 32) (h2 : 0 ≤ kw ∧ kw < 2 ^ 32) (h3 : 0 ≤ ic ∧ ic < 2 ^ 32) (lo lw : List Int) (n : Nat) :
    let o := (convOutIt [nb, oh, ow, ng, oc] [t0, t1, t2, t3, t4] lo).at n
    let w := (convWtsIt dw [nb, oh, ow, ng, oc] [t0, t1, t2, t3, t4] (if dw then [kh, kw, oc] else [1, kh, kw, ic, oc]) lw).at n
    w.getPos = [0, 0, 0, 0, o.getPos.getD 4 0] ∧
    w.sizes = if dw then [kh, kw, o.sizes.getD 4 0] else [1, kh, kw, ic, o.sizes.getD 4 0] := by
  intro o w
  have hopos := tileCfg_count_pos h
  generalize hc : tileCfg [nb, oh, ow, ng, oc] [t0, t1, t2, t3, t4] (List.range 5) 0 = cfg at hopos
  have hcfg : cfg = [tileDim 0 nb t0 0, tileDim 1 oh t1 0, tileDim 2 ow t2 0, tileDim 3 ng t3 0, tileDim 4 oc t4 0] := by rw [← hc]; rfl
  have q0 : (tileDim 0 nb t0 0).order = 0 := rfl
  have q1 : (tileDim 1 oh t1 0).order = 1 := rfl
  have q2 : (tileDim 2 ow t2 0).order = 2 := rfl
  have q3 : (tileDim 3 ng t3 0).order = 3 := rfl
  have q4 : (tileDim 4 oc t4 0).order = 4 := rfl
  generalize tileDim 0 nb t0 0 = c0 at *
  generalize tileDim 1 oh t1 0 = c1 at *
  generalize tileDim 2 ow t2 0 = c2 at *
  generalize tileDim 3 ng t3 0 = c3 at *
  generalize tileDim 4 oc t4 0 = c4 at *
  have ho : o = (TIt.start cfg [nb, oh, ow, ng, oc] lo).at n := by rw [← hc]; rfl
  have hw : w = (TIt.start (weightsCfg dw cfg (if dw then [kh, kw, oc] else [1, kh, kw, ic, oc])) (if dw then [kh, kw, oc] else [1, kh, kw, ic, oc]) lw).at n := by
    rw [← hc]; rfl
  rw [ho, hw]
  clear_value o w
  clear ho hw hc h
  subst hcfg
  have k0 := hopos c0 (by simp)
  have k1 := hopos c1 (by simp)
  have k2 := hopos c2 (by simp)
  have k3 := hopos c3 (by simp)
  have k4 := hopos c4 (by simp)
  have so : ((TIt.start [c0, c1, c2, c3, c4] [nb, oh, ow, ng, oc] lo).at n).st = stateAt [c0, c1, c2, c3, c4] n := nextN_eq hopos n
  have hu : u32 0 = 0 := u32_id (by omega)
  cases dw with
  | false =>
    simp only [Bool.false_eq_true, if_false]
    let b0 : DimCfg := { order := 0, count := c0.count, firstInc := 0, inc := 0, lastInc := 0, firstSize := 1, size := 1, lastSize := 1, code := 0 }
    let b1 : DimCfg := { order := 1, count := c1.count, firstInc := 0, inc := 0, lastInc := 0, firstSize := kh, size := kh, lastSize := kh, code := 0 }
    let b2 : DimCfg := { order := 2, count := c2.count, firstInc := 0, inc := 0, lastInc := 0, firstSize := kw, size := kw, lastSize := kw, code := 0 }
    let b3 : DimCfg := { order := 3, count := c3.count, firstInc := 0, inc := 0, lastInc := 0, firstSize := ic, size := ic, lastSize := ic, code := 0 }
    have hcfg : weightsCfg false [c0, c1, c2, c3, c4] [1, kh, kw, ic, oc] = [b0, b1, b2, b3, c4] := by
      simp [weightsCfg, followCfg, disableTiling, zeroInc, q0, q1, q2, q3, q4, b0, b1, b2, b3]
    rw [hcfg]
    have hb : ∀ c ∈ [b0, b1, b2, b3, c4], 1 ≤ c.count := by
      simp only [List.mem_cons, List.not_mem_nil, or_false]
      rintro c (rfl | rfl | rfl | rfl | rfl) <;> assumption
    have sw : ((TIt.start [b0, b1, b2, b3, c4] [1, kh, kw, ic, oc] lw).at n).st = stateAt [b0, b1, b2, b3, c4] n := nextN_eq hb n
    have e0 := fun j => posOf_still b0 j rfl rfl
    have e1 := fun j => posOf_still b1 j rfl rfl
    have e2 := fun j => posOf_still b2 j rfl rfl
    have e3 := fun j => posOf_still b3 j rfl rfl
    have f0 := fun j => tileSize_all 1 b0 j rfl rfl rfl (by omega)
    have f1 := fun j => tileSize_all kh b1 j rfl rfl rfl h1
    have f2 := fun j => tileSize_all kw b2 j rfl rfl rfl h2
    have f3 := fun j => tileSize_all ic b3 j rfl rfl rfl h3
    have g0 : b0.order = 0 := rfl
    have g1 : b1.order = 1 := rfl
    have g2 : b2.order = 2 := rfl
    have g3 : b3.order = 3 := rfl
    have n0 : b0.count = c0.count := rfl
    have n1 : b1.count = c1.count := rfl
    have n2 : b2.count = c2.count := rfl
    have n3 : b3.count = c3.count := rfl
    clear_value b0 b1 b2 b3
    constructor
    · unfold TIt.getPos
      rw [so, sw]
      simp [stateAt, e0, e1, e2, e3, n0, n1, n2, n3]
    · show (subTensor [1, kh, kw, ic, oc] [b0, b1, b2, b3, c4] ((TIt.start [b0, b1, b2, b3, c4] [1, kh, kw, ic, oc] lw).at n).st).2 = _
      rw [show ((TIt.start [c0, c1, c2, c3, c4] [nb, oh, ow, ng, oc] lo).at n).sizes =
        (subTensor [nb, oh, ow, ng, oc] [c0, c1, c2, c3, c4] ((TIt.start [c0, c1, c2, c3, c4] [nb, oh, ow, ng, oc] lo).at n).st).2 from rfl, so, sw]
      simp [stateAt, subTensor, g0, g1, g2, g3, q0, q1, q2, q3, q4, e0, e1, e2, e3, f0, f1, f2, f3, n0, n1, n2, n3]
  | true =>
    simp only [if_true]
    let b0 : DimCfg := { order := -1, count := c0.count, firstInc := 0, inc := 0, lastInc := 0, firstSize := 0, size := 0, lastSize := 0, code := 0 }
    let b1 : DimCfg := { order := 0, count := c1.count, firstInc := 0, inc := 0, lastInc := 0, firstSize := kh, size := kh, lastSize := kh, code := 0 }
    let b2 : DimCfg := { order := 1, count := c2.count, firstInc := 0, inc := 0, lastInc := 0, firstSize := kw, size := kw, lastSize := kw, code := 0 }
    let b3 : DimCfg := { order := -1, count := c3.count, firstInc := 0, inc := 0, lastInc := 0, firstSize := 0, size := 0, lastSize := 0, code := 0 }
    let b4 : DimCfg := { c4 with order := 2 }
    have hcfg : weightsCfg true [c0, c1, c2, c3, c4] [kh, kw, oc] = [b0, b1, b2, b3, b4] := by
      simp [weightsCfg, followCfg, disableTiling, zeroInc, updateOrder, b0, b1, b2, b3, b4]
    rw [hcfg]
    have hb : ∀ c ∈ [b0, b1, b2, b3, b4], 1 ≤ c.count := by
      simp only [List.mem_cons, List.not_mem_nil, or_false]
      rintro c (rfl | rfl | rfl | rfl | rfl) <;> assumption
    have sw : ((TIt.start [b0, b1, b2, b3, b4] [kh, kw, oc] lw).at n).st = stateAt [b0, b1, b2, b3, b4] n := nextN_eq hb n
    have e0 := fun j => posOf_still b0 j rfl rfl
    have e1 := fun j => posOf_still b1 j rfl rfl
    have e2 := fun j => posOf_still b2 j rfl rfl
    have e3 := fun j => posOf_still b3 j rfl rfl
    have f1 := fun j => tileSize_all kh b1 j rfl rfl rfl h1
    have f2 := fun j => tileSize_all kw b2 j rfl rfl rfl h2
    have g0 : b0.order = -1 := rfl
    have g1 : b1.order = 0 := rfl
    have g2 : b2.order = 1 := rfl
    have g3 : b3.order = -1 := rfl
    have g4 : b4.order = 2 := rfl
    have n0 : b0.count = c0.count := rfl
    have n1 : b1.count = c1.count := rfl
    have n2 : b2.count = c2.count := rfl
    have n3 : b3.count = c3.count := rfl
    have n4 : b4.count = c4.count := rfl
    have e4 : ∀ j, posOf b4 j = posOf c4 j := fun _ => rfl
    have f4 : ∀ s, tileSize oc b4 s = tileSize oc c4 s := fun _ => rfl
    clear_value b0 b1 b2 b3 b4
    constructor
    · unfold TIt.getPos
      rw [so, sw]
      simp [stateAt, e0, e1, e2, e3, e4, n0, n1, n2, n3, n4]
    · show (subTensor [kh, kw, oc] [b0, b1, b2, b3, b4] ((TIt.start [b0, b1, b2, b3, b4] [kh, kw, oc] lw).at n).st).2 = _
      rw [show ((TIt.start [c0, c1, c2, c3, c4] [nb, oh, ow, ng, oc] lo).at n).sizes =
        (subTensor [nb, oh, ow, ng, oc] [c0, c1, c2, c3, c4] ((TIt.start [c0, c1, c2, c3, c4] [nb, oh, ow, ng, oc] lo).at n).st).2 from rfl, so, sw]
      simp [stateAt, subTensor, g0, g1, g2, g3, g4, q0, q1, q2, q3, q4, e1, e2, e4, f1, f2, f4, n0, n1, n2, n3, n4]

/-- A dimension with stride 0 and a kernel of the size of the dimension: all of it in each tile. -/
theorem kernelDim_all (c : DimCfg) (n j : Int) (hn : 0 ≤ n ∧ n < 2 ^ 32) :
    posOf (kernelDim c n n 0 0) j = 0 ∧ tileSize n (kernelDim c n n 0 0) { pos := posOf (kernelDim c n n 0 0) j, idx := j } = n := by
  have hu : u32 0 = 0 := u32_id (by omega)
  have hun : u32 n = n := u32_id ⟨by omega, by omega⟩
  have hw : wrap 32 0 = 0 := by decide
  have e1 : (kernelDim c n n 0 0).firstInc = 0 := by simp [kernelDim, hu, hw]
  have e2 : (kernelDim c n n 0 0).inc = 0 := by simp [kernelDim, hu, hw]
  have e3 : (kernelDim c n n 0 0).firstSize = n := by simp [kernelDim, hu, hun]
  have e4 : (kernelDim c n n 0 0).size = n := by simp [kernelDim, hu, hun]
  have e5 : (kernelDim c n n 0 0).lastSize = n := by simp [kernelDim, hu, hun, hw]
  have hp := posOf_still _ j e1 e2
  exact ⟨hp, by rw [hp]; exact tileSize_all n _ j e3 e4 e5 hn⟩

/-- What is known about height or width in a tile: effective kernel size `k`. -/
structure ConvAxis (n k s p opos osz ipos isz p' : Int) : Prop where
  sh : Shifted n k s p opos osz ipos isz p'
  i1 : 1 ≤ isz
  o1 : 1 ≤ osz
  p0 : 0 ≤ p'
  p1 : p' ≤ p
  last : (osz - 1) * s - p' < isz

theorem conv_axis {out tile n k s p opos osz ipos isz idx : Int} (h : WinAt out tile 0 n k s p opos osz ipos isz idx) (hk : KernOk out tile 0 n k s p) :
    ConvAxis n k s p opos osz ipos isz (if idx = 0 then p else 0) := by
  obtain ⟨a0, a1, a2, a3, b0, b1, b3, c0, c1, c2, c3, c4, c5⟩ := h
  obtain ⟨⟨⟨t1, t2⟩, -, hN⟩, k1, s1, ⟨p0, p1⟩, hf, hl, ⟨hn1, hn2⟩, hsm⟩ := hk
  have eq : ipos = opos * s - p + (if idx = 0 then p else 0) := by
    split
    · rename_i e
      obtain ⟨u, v, -⟩ := c2 e
      rw [u, v]; simp
    · rename_i e
      have := (c3 e).1
      omega
  have hp' : 0 ≤ (if idx = 0 then p else 0) ∧ (if idx = 0 then p else 0) ≤ p := by split <;> omega
  generalize (if idx = 0 then p else 0) = p' at *
  refine ⟨⟨b0, b3, eq, c4⟩, b1, a1, hp'.1, hp'.2, ?_⟩
  have e2 : (opos + osz - 1) * s = opos * s + (osz - 1) * s := by ring
  have hm : (opos + osz - 1) * s ≤ (out - 1) * s := Int.mul_le_mul_of_nonneg_right (by omega) (by omega)
  have hm0 : 0 ≤ (opos + osz - 1) * s := Int.mul_nonneg (by omega) (by omega)
  by_cases hq : (opos + osz - 1) * s - p < 0
  · omega
  · have := c4 (opos + osz - 1) 0 (by omega) (by omega) (by omega) (by omega) (by omega) (by omega)
    omega

namespace ConvAxis

variable {n k s p d opos osz ipos isz p' : Int}

theorem coord (h : ConvAxis n k s p opos osz ipos isz p') (y t : Int) : tapCoord s p d (y + opos) t = tapCoord s p' d y t + ipos := by
  have := h.sh.coord y (t * d)
  unfold tapCoord at *
  omega

theorem inside {kk : Int} (h : ConvAxis n ((kk - 1) * d + 1) s p opos osz ipos isz p') (hd : 1 ≤ d) {y t : Int} (hy : 0 ≤ y ∧ y < osz) (ht : 0 ≤ t ∧ t < kk) :
    (0 ≤ tapCoord s p d (y + opos) t ∧ tapCoord s p d (y + opos) t < n) ↔ (0 ≤ tapCoord s p' d y t ∧ tapCoord s p' d y t < isz) := by
  have h1 : t * d ≤ (kk - 1) * d := Int.mul_le_mul_of_nonneg_right (by omega) (by omega)
  have h2 : 0 ≤ t * d := Int.mul_nonneg ht.1 (by omega)
  have := h.sh.inside hy (t := t * d) ⟨h2, by omega⟩
  unfold tapCoord at *
  simpa only [Int.mul_one] using this

/-- Windows of a tile meet the input. -/
theorem taps {kk : Int} (h : ConvAxis n ((kk - 1) * d + 1) s p opos osz ipos isz p') (hs : 0 ≤ s) (hp : p < (kk - 1) * d + 1) (y : Int) (y0 : 0 ≤ y) (y1 : y < osz) :
    0 ≤ tapCoord s p' d y (kk - 1) ∧ tapCoord s p' d y 0 < isz := by
  have h1 : y * s ≤ (osz - 1) * s := Int.mul_le_mul_of_nonneg_right (by omega) hs
  have h2 : 0 ≤ y * s := Int.mul_nonneg y0 hs
  have h3 := h.last
  have h4 := h.p1
  unfold tapCoord
  constructor <;> omega

end ConvAxis

theorem convSum_congr {kh kw ic ih iw z : Int} {X Y W V : Int → Int → Int → Int} {sh sw pt pl dh dw y x : Int}
    (hX : ∀ r q c, (0 ≤ r ∧ r < ih) → (0 ≤ q ∧ q < iw) → (0 ≤ c ∧ c < ic) → X r q c = Y r q c)
    (hW : ∀ i j c, (0 ≤ i ∧ i < kh) → (0 ≤ j ∧ j < kw) → (0 ≤ c ∧ c < ic) → W i j c = V i j c) :
    convSum kh kw ic (padded ih iw z X) W sh sw pt pl dh dw y x = convSum kh kw ic (padded ih iw z Y) V sh sw pt pl dh dw y x := by
  unfold convSum
  refine Finset.sum_congr rfl fun i hi => Finset.sum_congr rfl fun j hj => Finset.sum_congr rfl fun c hc => ?_
  rw [Finset.mem_range] at hi hj hc
  rw [hW i j c (by omega) (by omega) (by omega)]
  congr 1
  unfold padded
  by_cases h : 0 ≤ tapCoord sh pt dh y i ∧ tapCoord sh pt dh y i < ih ∧ 0 ≤ tapCoord sw pl dw x j ∧ tapCoord sw pl dw x j < iw
  · rw [if_pos h, if_pos h, hX _ _ _ ⟨h.1, h.2.1⟩ h.2.2 (by omega)]
  · rw [if_neg h, if_neg h]

/-- The window of a tile is the window of the whole tensor. -/
theorem convSum_shift {kh kw ic z ih iw sh sw pt pl dh dw oy osy iy isy pt' ox osx ix isx pl' y x : Int} {X W : Int → Int → Int → Int}
    (hh : ConvAxis ih ((kh - 1) * dh + 1) sh pt oy osy iy isy pt') (hw : ConvAxis iw ((kw - 1) * dw + 1) sw pl ox osx ix isx pl')
    (d1 : 1 ≤ dh) (d2 : 1 ≤ dw) (hy : 0 ≤ y ∧ y < osy) (hx : 0 ≤ x ∧ x < osx) :
    convSum kh kw ic (padded isy isx z fun r q c => X (r + iy) (q + ix) c) W sh sw pt' pl' dh dw y x =
      convSum kh kw ic (padded ih iw z X) W sh sw pt pl dh dw (y + oy) (x + ox) := by
  unfold convSum
  refine Finset.sum_congr rfl fun i hi => Finset.sum_congr rfl fun j hj => Finset.sum_congr rfl fun c hc => ?_
  rw [Finset.mem_range] at hi hj hc
  congr 1
  have h1 := hh.inside d1 hy (t := i) (by omega)
  have h2 := hw.inside d2 hx (t := j) (by omega)
  unfold padded
  by_cases h : 0 ≤ tapCoord sh pt' dh y i ∧ tapCoord sh pt' dh y i < isy ∧ 0 ≤ tapCoord sw pl' dw x j ∧ tapCoord sw pl' dw x j < isx
  · obtain ⟨a, b⟩ := h1.mpr ⟨h.1, h.2.1⟩
    rw [if_pos h, if_pos ⟨a, b, h2.mpr h.2.2⟩, hh.coord, hw.coord]
  · rw [if_neg h, if_neg fun h' => h ⟨(h1.mp ⟨h'.1, h'.2.1⟩).1, (h1.mp ⟨h'.1, h'.2.1⟩).2, h2.mp h'.2.2⟩]

/-- Address of an element of one group and batch element of a tile. -/
def at5 (s : List Int) (r q c : Int) : Int := offset s [0, r, q, 0, c]

theorem hwc_addr {t : Tensor} {h w c a0 a1 a2 a3 b : Int} (hd : t.dims = [⟨1, a0⟩, ⟨h, a1⟩, ⟨w, a2⟩, ⟨1, a3⟩, ⟨c, 1⟩] ∧ t.base = b) (r q k : Int) :
    (hwcPart t).addr [r, q, k] = b + at5 [a0, a1, a2, a3, 1] r q k := by
  unfold hwcPart
  rw [hd.1]
  simp only [Tensor.addr, Tensor.strides, List.map_cons, List.map_nil, offset, at5, hd.2]
  ring

theorem hwc_dims {t : Tensor} {h w c a0 a1 a2 a3 b : Int} (hd : t.dims = [⟨1, a0⟩, ⟨h, a1⟩, ⟨w, a2⟩, ⟨1, a3⟩, ⟨c, 1⟩] ∧ t.base = b) :
    (hwcPart t).dims = [⟨h, a1⟩, ⟨w, a2⟩, ⟨c, 1⟩] := by
  unfold hwcPart
  rw [hd.1]

theorem hwc_shape {t : Tensor} {h w c a0 a1 a2 a3 b : Int} (hd : t.dims = [⟨1, a0⟩, ⟨h, a1⟩, ⟨w, a2⟩, ⟨1, a3⟩, ⟨c, 1⟩] ∧ t.base = b) :
    (hwcPart t).shape = [h, w, c] := by
  unfold Tensor.shape
  rw [hwc_dims hd]; rfl

theorem inShape3' {a b c : Int} {x : List Int} (h : InShape [a, b, c] x) : ∃ p q r, x = [p, q, r] := by
  match x, h with
  | [p, q, r], _ => exact ⟨p, q, r, rfl⟩

theorem inShape5 {a b c d e : Int} {x : List Int} (h : InShape [a, b, c, d, e] x) : ∃ p q r s t, x = [p, q, r, s, t] := by
  match x, h with
  | [p, q, r, s, t], _ => exact ⟨p, q, r, s, t, rfl⟩

theorem up5 {h w c r q k : Int} (hi : InShape [h, w, c] [r, q, k]) : InShape [1, h, w, 1, c] [0, r, q, 0, k] :=
  ⟨⟨by omega, by omega⟩, hi.1, hi.2.1, ⟨by omega, by omega⟩, hi.2.2⟩

/-- Bounds of the part of a tile that a convolution works on. -/
theorem hwc_placed {t : Tensor} {h w c a0 a1 a2 a3 b : Int} {m : Buf} (hd : t.dims = [⟨1, a0⟩, ⟨h, a1⟩, ⟨w, a2⟩, ⟨1, a3⟩, ⟨c, 1⟩] ∧ t.base = b)
    (h1 : 1 ≤ h ∧ 1 ≤ w ∧ 1 ≤ c)
    (hb : ∀ y, InShape [1, h, w, 1, c] y → 0 ≤ b + offset [a0, a1, a2, a3, 1] y ∧ b + offset [a0, a1, a2, a3, 1] y < m.size) : (hwcPart t).Placed m := by
  refine ⟨?_, ?_⟩
  · rw [hwc_dims hd]
    simp only [List.mem_cons, List.not_mem_nil, or_false]
    rintro d (rfl | rfl | rfl)
    exacts [h1.1, h1.2.1, h1.2.2]
  · intro is his
    rw [hwc_shape hd] at his
    obtain ⟨r, q, k, rfl⟩ := inShape3' his
    rw [hwc_addr hd]
    exact hb _ (up5 his)

/-- The output elements are at different addresses. -/
theorem hwc_inj {t : Tensor} {h w c a0 a1 a2 a3 b : Int} (hd : t.dims = [⟨1, a0⟩, ⟨h, a1⟩, ⟨w, a2⟩, ⟨1, a3⟩, ⟨c, 1⟩] ∧ t.base = b)
    (hj : ∀ y z, InShape [1, h, w, 1, c] y → InShape [1, h, w, 1, c] z → offset [a0, a1, a2, a3, 1] y = offset [a0, a1, a2, a3, 1] z → y = z) (y z : List Int)
    (hy : InShape (hwcPart t).shape y) (hz : InShape (hwcPart t).shape z) (e : (hwcPart t).addr y = (hwcPart t).addr z) : y = z := by
  rw [hwc_shape hd] at hy hz
  obtain ⟨r, q, k, rfl⟩ := inShape3' hy
  obtain ⟨r', q', k', rfl⟩ := inShape3' hz
  rw [hwc_addr hd, hwc_addr hd] at e
  have := hj _ _ (up5 hy) (up5 hz) (by unfold at5 at e; omega)
  simp only [List.cons.injEq, and_true, true_and] at this
  rw [this.1, this.2.1, this.2.2]

/-- `Conv2d::Issue` on one tile. -/
theorem conv_issue {o : ConvObj} (hk : o.dw = false) (hwd : o.wi = 8 ∧ o.ww = 8 ∧ o.wo = 32) {lin lw lz lout : Buf}
    {isy isx ic kh kw osy osx kn a0 a1 a2 a3 w0 w1 w2 w3 w4 e0 e1 e2 e3 bi bw bo : Int}
    (hti : o.tin.dims = [⟨1, a0⟩, ⟨isy, a1⟩, ⟨isx, a2⟩, ⟨1, a3⟩, ⟨ic, 1⟩] ∧ o.tin.base = bi)
    (htw : o.tw.dims = [⟨1, w0⟩, ⟨kh, w1⟩, ⟨kw, w2⟩, ⟨ic, w3⟩, ⟨kn, w4⟩] ∧ o.tw.base = bw)
    (hto : o.tout.dims = [⟨1, e0⟩, ⟨osy, e1⟩, ⟨osx, e2⟩, ⟨1, e3⟩, ⟨kn, 1⟩] ∧ o.tout.base = bo)
    (p1 : 1 ≤ isy ∧ 1 ≤ isx ∧ 1 ≤ ic) (p2 : 1 ≤ kh ∧ 1 ≤ kw ∧ 1 ≤ kn)
    (hib : ∀ y, InShape [1, isy, isx, 1, ic] y → (0 ≤ bi + offset [a0, a1, a2, a3, 1] y ∧ bi + offset [a0, a1, a2, a3, 1] y < lin.size) ∧
      InRange 8 (lin.get (bi + offset [a0, a1, a2, a3, 1] y)))
    (hwb : ∀ y, InShape [1, kh, kw, ic, kn] y → (0 ≤ bw + offset [w0, w1, w2, w3, w4] y ∧ bw + offset [w0, w1, w2, w3, w4] y < lw.size) ∧
      InRange 8 (lw.get (bw + offset [w0, w1, w2, w3, w4] y)))
    (hob : ∀ y, InShape [1, osy, osx, 1, kn] y → 0 ≤ bo + offset [e0, e1, e2, e3, 1] y ∧ bo + offset [e0, e1, e2, e3, 1] y < lout.size)
    (hoj : ∀ y z, InShape [1, osy, osx, 1, kn] y → InShape [1, osy, osx, 1, kn] z → offset [e0, e1, e2, e3, 1] y = offset [e0, e1, e2, e3, 1] z → y = z)
    (hc : o.tcfg.Typed) (hd : 1 ≤ o.tcfg.dh ∧ 1 ≤ o.tcfg.dw) (hz : InRange 8 o.zx) (hzw : lz.rd o.bz = some 0) (hmeet : RowsMeet isy kh osy o.tcfg)
    (ht : ic * (kh * kw) ≤ 43690) :
    ∃ r1, o.issue lin lw lz lout = some (.ok, r1) ∧ r1.size = lout.size ∧ ∀ y x k, InShape [osy, osx, kn] [y, x, k] →
      r1.get (bo + at5 [e0, e1, e2, e3, 1] y x k) =
        convSum kh kw ic (padded isy isx o.zx fun r q c => lin.get (bi + at5 [a0, a1, a2, a3, 1] r q c))
          (fun i j c => lw.get (bw + offset [w0, w1, w2, w3, w4] [0, i, j, c, k])) o.tcfg.sh o.tcfg.sw o.tcfg.pt o.tcfg.pl o.tcfg.dh o.tcfg.dw y x := by
  have wd : (wtsPart o.tw).dims = [⟨kh, w1⟩, ⟨kw, w2⟩, ⟨ic, w3⟩, ⟨kn, w4⟩] := by unfold wtsPart; rw [htw.1]
  have wsh : (wtsPart o.tw).shape = [kh, kw, ic, kn] := by unfold Tensor.shape; rw [wd]; rfl
  have wa : ∀ i j c k, (wtsPart o.tw).addr [i, j, c, k] = bw + offset [w0, w1, w2, w3, w4] [0, i, j, c, k] := by
    intro i j c k
    unfold wtsPart
    rw [htw.1]
    simp only [Tensor.addr, Tensor.strides, List.map_cons, List.map_nil, offset, htw.2]
    ring
  have w5 : ∀ is, InShape (wtsPart o.tw).shape is → ∃ i j c k, is = [i, j, c, k] ∧ InShape [1, kh, kw, ic, kn] [0, i, j, c, k] := by
    intro is his
    rw [wsh] at his
    obtain ⟨i, j, c, k, rfl⟩ := inShape4 his
    exact ⟨i, j, c, k, rfl, ⟨by omega, by omega⟩, his⟩
  have pw : (wtsPart o.tw).Placed lw := by
    refine ⟨?_, ?_⟩
    · rw [wd]
      simp only [List.mem_cons, List.not_mem_nil, or_false]
      rintro d (rfl | rfl | rfl | rfl)
      exacts [p2.1, p2.2.1, p1.2.2, p2.2.2]
    · intro is his
      obtain ⟨i, j, c, k, rfl, h⟩ := w5 is his
      rw [wa]
      exact (hwb _ h).1
  have T : ConvT (hwcPart o.tin) (wtsPart o.tw) o.tcfg lin lw ⟨isy, a1⟩ ⟨isx, a2⟩ ⟨ic, 1⟩ ⟨kh, w1⟩ ⟨kw, w2⟩ ⟨ic, w3⟩ ⟨kn, w4⟩ :=
    ⟨hwc_placed hti p1 fun y hy => (hib y hy).1, pw, hwc_dims hti, wd, rfl, hd.1, hd.2⟩
  obtain ⟨r1, h1, h2⟩ := conv2d_issue_laid (dst := lout) (tout := hwcPart o.tout) o.zx T rfl (oc := ⟨kn, 1⟩) rfl (hwc_dims hto) rfl
    (by
      intro is his
      rw [hwc_shape hto] at his
      obtain ⟨r, q, k, rfl⟩ := inShape3' his
      rw [hwc_addr hto]
      exact hob _ (up5 his))
    (fun y z hy hz e => hwc_inj hto hoj y z hy hz e)
    (by
      intro is his
      rw [hwc_shape hti] at his
      obtain ⟨r, q, k, rfl⟩ := inShape3' his
      rw [hwc_addr hti]
      exact (hib _ (up5 his)).2)
    (by
      intro is his
      obtain ⟨i, j, c, k, rfl, h⟩ := w5 is his
      rw [wa]
      exact (hwb _ h).2) hc hz hmeet ht
  refine ⟨r1, ?_, h2.size, ?_⟩
  · unfold ConvObj.issue
    rw [if_pos hwd, hzw, Option.bind_some, hk]
    simp only [Bool.false_eq_true, if_false]
    rw [h1]; rfl
  · intro y x k hs
    have := h2.elem [y, x, k] (by rw [hwc_shape hto]; exact hs)
    rw [hwc_addr hto] at this
    rw [this]
    have f1 : inElem lin (hwcPart o.tin) = fun r q c => lin.get (bi + at5 [a0, a1, a2, a3, 1] r q c) := by
      funext r q c; unfold inElem; rw [hwc_addr hti]
    have f2 : wtElem lw (wtsPart o.tw) k = fun i j c => lw.get (bw + offset [w0, w1, w2, w3, w4] [0, i, j, c, k]) := by
      funext i j c; unfold wtElem; rw [wa]
    simp only [f1, f2]

/-- `DepthwiseConv2d::Issue` on one tile. -/
theorem dw_issue {o : ConvObj} (hk : o.dw = true) (hwd : o.wi = 8 ∧ o.ww = 8 ∧ o.wo = 32) (hnb : o.nb = 1) {lin lw lz lout : Buf}
    {isy isx kh kw osy osx kn a0 a1 a2 a3 w1 w2 w4 e0 e1 e2 e3 bi bw bo zw : Int}
    (hti : o.tin.dims = [⟨1, a0⟩, ⟨isy, a1⟩, ⟨isx, a2⟩, ⟨1, a3⟩, ⟨kn, 1⟩] ∧ o.tin.base = bi)
    (htw : o.tw.dims = [⟨kh, w1⟩, ⟨kw, w2⟩, ⟨kn, w4⟩] ∧ o.tw.base = bw)
    (hto : o.tout.dims = [⟨1, e0⟩, ⟨osy, e1⟩, ⟨osx, e2⟩, ⟨1, e3⟩, ⟨kn, 1⟩] ∧ o.tout.base = bo)
    (p1 : 1 ≤ isy ∧ 1 ≤ isx ∧ 1 ≤ kn) (p2 : 1 ≤ kh ∧ 1 ≤ kw) (p3 : 1 ≤ osy ∧ 1 ≤ osx)
    (hib : ∀ y, InShape [1, isy, isx, 1, kn] y → (0 ≤ bi + offset [a0, a1, a2, a3, 1] y ∧ bi + offset [a0, a1, a2, a3, 1] y < lin.size) ∧
      InRange 8 (lin.get (bi + offset [a0, a1, a2, a3, 1] y)))
    (hwb : ∀ y, InShape [kh, kw, kn] y → (0 ≤ bw + offset [w1, w2, w4] y ∧ bw + offset [w1, w2, w4] y < lw.size) ∧
      InRange 8 (lw.get (bw + offset [w1, w2, w4] y)))
    (hob : ∀ y, InShape [1, osy, osx, 1, kn] y → 0 ≤ bo + offset [e0, e1, e2, e3, 1] y ∧ bo + offset [e0, e1, e2, e3, 1] y < lout.size)
    (hoj : ∀ y z, InShape [1, osy, osx, 1, kn] y → InShape [1, osy, osx, 1, kn] z → offset [e0, e1, e2, e3, 1] y = offset [e0, e1, e2, e3, 1] z → y = z)
    (hc : o.tcfg.Typed) (hd : 1 ≤ o.tcfg.dh ∧ 1 ≤ o.tcfg.dw) (hz : InRange 8 o.zx) (hzr : InRange 8 zw) (hzw : lz.rd o.bz = some zw)
    (hs : 0 < o.tcfg.sh ∧ 0 < o.tcfg.sw) (hp : o.tcfg.pt < (kh - 1) * o.tcfg.dh + 1 ∧ o.tcfg.pl < (kw - 1) * o.tcfg.dw + 1)
    (hrow : ∀ y, 0 ≤ y → y < osy → 0 ≤ tapCoord o.tcfg.sh o.tcfg.pt o.tcfg.dh y (kh - 1) ∧ tapCoord o.tcfg.sh o.tcfg.pt o.tcfg.dh y 0 < isy)
    (hcol : ∀ x, 0 ≤ x → x < osx → 0 ≤ tapCoord o.tcfg.sw o.tcfg.pl o.tcfg.dw x (kw - 1) ∧ tapCoord o.tcfg.sw o.tcfg.pl o.tcfg.dw x 0 < isx)
    (ht : kh * kw ≤ 26214) :
    ∃ r1, o.issue lin lw lz lout = some (.ok, r1) ∧ r1.size = lout.size ∧ ∀ y x k, InShape [osy, osx, kn] [y, x, k] →
      r1.get (bo + at5 [e0, e1, e2, e3, 1] y x k) =
        convSum kh kw 1 (padded isy isx o.zx fun r q _ => lin.get (bi + at5 [a0, a1, a2, a3, 1] r q k))
          (fun i j _ => lw.get (bw + offset [w1, w2, w4] [i, j, k]) - zw) o.tcfg.sh o.tcfg.sw o.tcfg.pt o.tcfg.pl o.tcfg.dh o.tcfg.dw y x := by
  have wd : (wtsPart o.tw).dims = [⟨kh, w1⟩, ⟨kw, w2⟩, ⟨1, kn⟩, ⟨kn, w4⟩] := by unfold wtsPart; rw [htw.1]
  have wsh : (wtsPart o.tw).shape = [kh, kw, 1, kn] := by unfold Tensor.shape; rw [wd]; rfl
  have wa : ∀ i j k, (wtsPart o.tw).addr [i, j, 0, k] = bw + offset [w1, w2, w4] [i, j, k] := by
    intro i j k
    unfold wtsPart
    rw [htw.1]
    simp only [Tensor.addr, Tensor.strides, List.map_cons, List.map_nil, offset, htw.2]
    ring
  have w5 : ∀ is, InShape (wtsPart o.tw).shape is → ∃ i j k, is = [i, j, 0, k] ∧ InShape [kh, kw, kn] [i, j, k] := by
    intro is his
    rw [wsh] at his
    obtain ⟨i, j, c, k, rfl⟩ := inShape4 his
    obtain ⟨u1, u2, u3, u4⟩ := his
    have : c = 0 := by omega
    subst this
    exact ⟨i, j, k, rfl, u1, u2, u4⟩
  have pw : (wtsPart o.tw).Placed lw := by
    refine ⟨?_, ?_⟩
    · rw [wd]
      simp only [List.mem_cons, List.not_mem_nil, or_false]
      rintro d (rfl | rfl | rfl | rfl)
      exacts [p2.1, p2.2, le_refl 1, p1.2.2]
    · intro is his
      obtain ⟨i, j, k, rfl, h⟩ := w5 is his
      rw [wa]
      exact (hwb _ h).1
  have T : ConvT (hwcPart o.tin) (wtsPart o.tw) o.tcfg lin lw ⟨isy, a1⟩ ⟨isx, a2⟩ ⟨kn, 1⟩ ⟨kh, w1⟩ ⟨kw, w2⟩ ⟨1, kn⟩ ⟨kn, w4⟩ :=
    ⟨hwc_placed hti p1 fun y hy => (hib y hy).1, pw, hwc_dims hti, wd, rfl, hd.1, hd.2⟩
  obtain ⟨r1, h1, h2⟩ := depthwise_issue_laid (dst := lout) (tout := hwcPart o.tout) o.zx zw T rfl (oc := ⟨kn, 1⟩) rfl (hwc_dims hto) p3.1 p3.2 rfl
    (by
      intro is his
      rw [hwc_shape hto] at his
      obtain ⟨r, q, k, rfl⟩ := inShape3' his
      rw [hwc_addr hto]
      exact hob _ (up5 his))
    (fun y z hy hz e => hwc_inj hto hoj y z hy hz e)
    (by
      intro is his
      rw [hwc_shape hti] at his
      obtain ⟨r, q, k, rfl⟩ := inShape3' his
      rw [hwc_addr hti]
      exact (hib _ (up5 his)).2)
    (by
      intro is his
      obtain ⟨i, j, k, rfl, h⟩ := w5 is his
      rw [wa]
      exact (hwb _ h).2) hc hz hzr hs hp hrow hcol ht
  refine ⟨r1, ?_, h2.size, ?_⟩
  · unfold ConvObj.issue
    rw [if_pos hwd, hzw, Option.bind_some, hk]
    simp only [if_true]
    unfold depthwiseIssueN
    rw [hnb]
    show (forRange 1 _ lout).map _ = _
    simp only [forRange, h1, Option.bind_some, Option.bind_eq_bind, Option.map_some]
  · intro y x k hs
    have := h2.elem [y, x, k] (by rw [hwc_shape hto]; exact hs)
    rw [hwc_addr hto] at this
    rw [this]
    simp only [inElem, wtElem, hwc_addr hti, wa]

/-- A tile-by-tile execution of a convolution: kind, input zero point, configuration, sizes (`nb` batch elements), sizes of the output tiles (`t1` rows, `t2` columns,
`t4` channels; one batch element), sizes `itiles` that no input tile exceeds, strides and addresses of the tiles in the local buffers `lin`, `lwt`, `lz`
(zero points of the weights) and `lout`, the tensors in global memory. -/
structure ConvRun where
  dw : Bool
  zx : Int
  c : ConvCfg
  nb : Int
  ih : Int
  iw : Int
  ic : Int
  oh : Int
  ow : Int
  oc : Int
  kh : Int
  kw : Int
  t1 : Int
  t2 : Int
  t4 : Int
  itiles : List Int
  ls : List Int
  lw : List Int
  lo : List Int
  bi : Int
  bw : Int
  bz : Int
  bo : Int
  lin : Buf
  lwt : Buf
  lz : Buf
  lout : Buf
  gin : Glob
  gw : Glob
  gz : Buf
  gos : List Int
  gout : Buf

namespace ConvRun

def ishape (R : ConvRun) : List Int := [R.nb, R.ih, R.iw, 1, R.ic]
def oshape (R : ConvRun) : List Int := [R.nb, R.oh, R.ow, 1, R.oc]
def tiles (R : ConvRun) : List Int := [1, R.t1, R.t2, 1, R.t4]
/-- Dimensions of the weights. -/
def wshape (R : ConvRun) : List Int := if R.dw then [R.kh, R.kw, R.oc] else [1, R.kh, R.kw, R.ic, R.oc]
/-- Dimensions of a tile of the weights with `k` output channels. -/
def wtile (R : ConvRun) (k : Int) : List Int := if R.dw then [R.kh, R.kw, k] else [1, R.kh, R.kw, R.ic, k]
/-- Effective kernel size, stride and padding in the five dimensions: tests_mli_krn_conv2d_30.cc:502-508, tests_mli_krn_depthwise_conv_30.cc:417-424. -/
def k5 (R : ConvRun) (d : Nat) : Int := [1, (R.kh - 1) * R.c.dh + 1, (R.kw - 1) * R.c.dw + 1, 1, if R.dw then 1 else R.ic].getD d 0
def s5 (R : ConvRun) (d : Nat) : Int := [1, R.c.sh, R.c.sw, 1, if R.dw then 1 else 0].getD d 0
def p5 (R : ConvRun) (d : Nat) : Int := [0, R.c.pt, R.c.pl, 0, 0].getD d 0

def out (R : ConvRun) : TIt := convOutIt R.oshape R.tiles R.lo
def inp (R : ConvRun) : TIt := TIt.start (kernelCfg (tileCfg R.oshape R.tiles (List.range R.oshape.length) 0) R.ishape R.k5 R.s5 R.p5) R.ishape R.ls
def wts (R : ConvRun) : TIt := convWtsIt R.dw R.oshape R.tiles R.wshape R.lw

/-- The caller before the first round, with the bits of input, weight and output elements. -/
def start (R : ConvRun) (wi ww wo : Nat) : ConvHost :=
  ⟨ConvObj.new R.dw wi ww wo R.zx R.c R.inp R.wts R.out R.bi R.bw R.bz R.bo, R.lin, R.lwt, R.lz, R.lout, R.gout, .ok⟩

/-- Number of rounds. -/
def rounds (R : ConvRun) : Nat := (totalCount R.out.cfg).toNat

/-- All rounds. -/
def run (R : ConvRun) (wi ww wo : Nat) : Option ConvHost := ConvHost.run R.gin R.gw R.gz R.gos R.rounds (R.start wi ww wo)

/-- Input element of the whole tensor. -/
def input (R : ConvRun) (b r q c : Int) : Int := R.gin.buf.get (offset R.gin.strides [b, r, q, 0, c])

/-- Weight of the whole tensor; depthwise: input channel 0. -/
def weight (R : ConvRun) (i j c k : Int) : Int := R.gw.buf.get (offset R.gw.strides (if R.dw then [i, j, k] else [0, i, j, c, k]))

/-- What the output holds at `[b, y, x, 0, k]`. -/
def value (R : ConvRun) (b y x k : Int) : Int :=
  if R.dw then
    convSum R.kh R.kw 1 (padded R.ih R.iw R.zx fun r q _ => R.input b r q k) (fun i j _ => R.weight i j 0 k - R.gz.get k)
      R.c.sh R.c.sw R.c.pt R.c.pl R.c.dh R.c.dw y x
  else
    convSum R.kh R.kw R.ic (padded R.ih R.iw R.zx fun r q c => R.input b r q c) (fun i j c => R.weight i j c k)
      R.c.sh R.c.sw R.c.pt R.c.pl R.c.dh R.c.dw y x

end ConvRun

/-- What a run needs. -/
structure ConvOk (R : ConvRun) : Prop where
  batch : 1 ≤ R.nb ∧ R.nb < 2 ^ 29
  rows : KernOk R.oh R.t1 0 R.ih ((R.kh - 1) * R.c.dh + 1) R.c.sh R.c.pt
  cols : KernOk R.ow R.t2 0 R.iw ((R.kw - 1) * R.c.dw + 1) R.c.sw R.c.pl
  chans : 1 ≤ R.t4 ∧ R.t4 ≤ R.oc ∧ R.oc < 2 ^ 29
  inch : 1 ≤ R.ic ∧ R.ic < 2 ^ 29
  kern : (1 ≤ R.kh ∧ R.kh < 2 ^ 29) ∧ 1 ≤ R.kw ∧ R.kw < 2 ^ 29
  depth : R.dw = true → R.ic = R.oc
  typed : R.c.Typed
  dil : 1 ≤ R.c.dh ∧ 1 ≤ R.c.dw
  meet : R.dw = false → RowsMeet R.ih R.kh R.oh R.c
  taps : if R.dw then R.kh * R.kw ≤ 26214 else R.ic * (R.kh * R.kw) ≤ 43690
  zin : InRange 8 R.zx
  zwts : ∀ k, 0 ≤ k → k < R.oc → InRange 8 (R.gz.get k)
  zuse : ∀ k, 0 ≤ k → k < R.oc → if R.dw then R.gz.get k = R.gz.get (k / R.t4 * R.t4) else R.gz.get k = 0
  zsize : R.oc ≤ R.gz.size
  fits : ∀ n d, n < R.rounds → d < 5 → (R.inp.at n).sizes.getD d 0 ≤ R.itiles.getD d 0
  ilen : R.itiles.length = 5
  iplace : Place R.itiles R.ls R.bi R.lin.size
  oplace : Place R.tiles R.lo R.bo R.lout.size
  wlen : R.lw.length = R.wshape.length
  wbound : ∀ y, InShape (R.wtile R.t4) y → 0 ≤ R.bw + offset R.lw y ∧ R.bw + offset R.lw y < R.lwt.size
  winj : ∀ y z, InShape (R.wtile R.t4) y → InShape (R.wtile R.t4) z → offset R.lw y = offset R.lw z → y = z
  zplace : 0 ≤ R.bz ∧ R.bz + R.t4 ≤ R.lz.size
  inb : ∀ x, InShape R.ishape x → (0 ≤ offset R.gin.strides x ∧ offset R.gin.strides x < R.gin.buf.size) ∧ InRange 8 (R.gin.buf.get (offset R.gin.strides x))
  wb : ∀ x, InShape R.wshape x → (0 ≤ offset R.gw.strides x ∧ offset R.gw.strides x < R.gw.buf.size) ∧ InRange 8 (R.gw.buf.get (offset R.gw.strides x))
  outb : ∀ x, InShape R.oshape x → 0 ≤ offset R.gos x ∧ offset R.gos x < R.gout.size
  outj : ∀ x y, InShape R.oshape x → InShape R.oshape y → offset R.gos x = offset R.gos y → x = y

/-- Round `n`: positions and sizes of the tiles. -/
structure ConvCell (R : ConvRun) (n : Nat) (b oy osy iy isy pt ox osx ix isx pl k0 kn c0 cn : Int) : Prop where
  opos : (R.out.at n).getPos = [b, oy, ox, 0, k0]
  osz : (R.out.at n).sizes = [1, osy, osx, 1, kn]
  ipos : (R.inp.at n).getPos = [b, iy, ix, 0, c0]
  isz : (R.inp.at n).sizes = [1, isy, isx, 1, cn]
  wpos : (R.wts.at n).getPos = [0, 0, 0, 0, k0]
  wsz : (R.wts.at n).sizes = R.wtile kn
  hb : 0 ≤ b ∧ b < R.nb
  hk : 0 ≤ k0 ∧ 1 ≤ kn ∧ k0 + kn ≤ R.oc ∧ kn ≤ R.t4
  tile : ∀ k, 0 ≤ k → k < kn → (k + k0) / R.t4 * R.t4 = k0
  hc : if R.dw then c0 = k0 ∧ cn = kn else c0 = 0 ∧ cn = R.ic
  ah : ConvAxis R.ih ((R.kh - 1) * R.c.dh + 1) R.c.sh R.c.pt oy osy iy isy pt
  aw : ConvAxis R.iw ((R.kw - 1) * R.c.dw + 1) R.c.sw R.c.pl ox osx ix isx pl
  pads : (convPads R.dw (R.inp.at n) R.c).pt = pt ∧ (convPads R.dw (R.inp.at n) R.c).pl = pl

theorem kernOk_plain {n t : Int} (h1 : 1 ≤ t) (h2 : t ≤ n) (h3 : n < 2 ^ 29) : KernOk n t 0 n 1 1 0 :=
  ⟨⟨⟨h1, h2⟩, ⟨by omega, by omega⟩, by omega⟩, by omega, by omega, by omega, by omega, by omega, ⟨by omega, by omega⟩, by omega⟩

theorem ConvOk.tiling {R : ConvRun} (h : ConvOk R) : TilingOk R.oshape R.tiles (List.range 5) 0 := by
  refine ⟨rfl, Nat.zero_lt_succ _, List.nodup_range, fun d hd => by simpa [ConvRun.oshape] using hd, ?_⟩
  intro i hi
  have hi' : i < 5 := by simpa using hi
  have hb := h.batch
  have hc := h.chans
  have : (List.range 5).getD i 0 = i := by rw [List.getD_eq_getElem?_getD, List.getElem?_range hi']; rfl
  rw [this, show (if i = 0 then (0 : Int) else 0) = 0 by split <;> rfl]
  match i, hi' with
  | 0, _ => exact ⟨⟨by show (1 : Int) ≤ 1; omega, by show 1 ≤ R.nb; omega⟩, ⟨by omega, by show (0 : Int) < 1; omega⟩, by show R.nb < 2 ^ 30; omega⟩
  | 1, _ => exact h.rows.otile
  | 2, _ => exact h.cols.otile
  | 3, _ => exact ⟨⟨by show (1 : Int) ≤ 1; omega, by show (1 : Int) ≤ 1; omega⟩, ⟨by omega, by show (0 : Int) < 1; omega⟩, by show (1 : Int) < 2 ^ 30; omega⟩
  | 4, _ => exact ⟨⟨hc.1, hc.2.1⟩, ⟨by omega, by show (0 : Int) < R.t4; omega⟩, by show R.oc < 2 ^ 30; omega⟩

theorem list5 {l : List Int} (h : l.length = 5) : l = [l.getD 0 0, l.getD 1 0, l.getD 2 0, l.getD 3 0, l.getD 4 0] := by
  match l, h with
  | [a, b, c, d, e], _ => rfl

theorem ConvOk.cell {R : ConvRun} (h : ConvOk R) (n : Nat) :
    ∃ b oy osy iy isy pt ox osx ix isx pl k0 kn c0 cn, ConvCell R n b oy osy iy isy pt ox osx ix isx pl k0 kn c0 cn := by
  have hb := h.batch
  have hc := h.chans
  have htil := h.tiling
  have hq := tileSeq_range (shape := R.oshape) htil rfl R.lo
  change TileSeq R.oshape R.tiles R.rounds (fun n => (R.out.at n).getPos) (fun n => (R.out.at n).sizes) at hq
  have wt := fun d hd hk => winTiles (oshape := R.oshape) (tiles := R.tiles) (ishape := R.ishape) (skew := 0) (k := R.k5)
    (s := R.s5) (p := R.p5) R.lo R.ls htil rfl n d hd hk
  have l4 := lockCell (oshape := R.oshape) (tiles := R.tiles) (ishape := R.ishape) (skew := 0) (k := R.k5) (s := R.s5) (p := R.p5) R.lo R.ls htil rfl n 4
    (show 4 < 5 by omega)
  obtain ⟨w0, -, li1, li2⟩ := wt 0 (show 0 < 5 by omega) (kernOk_plain (n := R.nb) (t := 1) (by omega) hb.1 hb.2)
  obtain ⟨w1, -⟩ := wt 1 (show 1 < 5 by omega) h.rows
  obtain ⟨w2, -⟩ := wt 2 (show 2 < 5 by omega) h.cols
  obtain ⟨w3, -⟩ := wt 3 (show 3 < 5 by omega) (kernOk_plain (n := 1) (t := 1) (by omega) (by omega) (by omega))
  change WinAt R.nb 1 0 R.nb 1 1 0 ((R.out.at n).getPos.getD 0 0) ((R.out.at n).sizes.getD 0 0) ((R.inp.at n).getPos.getD 0 0) ((R.inp.at n).sizes.getD 0 0) _ at w0
  change WinAt R.oh R.t1 0 R.ih _ R.c.sh R.c.pt ((R.out.at n).getPos.getD 1 0) ((R.out.at n).sizes.getD 1 0) ((R.inp.at n).getPos.getD 1 0)
    ((R.inp.at n).sizes.getD 1 0) (((R.inp.at n).st.map (·.idx)).getD 1 0) at w1
  change WinAt R.ow R.t2 0 R.iw _ R.c.sw R.c.pl ((R.out.at n).getPos.getD 2 0) ((R.out.at n).sizes.getD 2 0) ((R.inp.at n).getPos.getD 2 0)
    ((R.inp.at n).sizes.getD 2 0) (((R.inp.at n).st.map (·.idx)).getD 2 0) at w2
  change WinAt 1 1 0 1 1 1 0 ((R.out.at n).getPos.getD 3 0) ((R.out.at n).sizes.getD 3 0) ((R.inp.at n).getPos.getD 3 0) ((R.inp.at n).sizes.getD 3 0) _ at w3
  change (R.inp.at n).getPos.length = 5 at li1
  change (R.inp.at n).sizes.length = 5 at li2
  have lo1 : (R.out.at n).getPos.length = 5 := hq.lenP n
  have lo2 : (R.out.at n).sizes.length = 5 := hq.lenS n
  have b4 : 0 ≤ (R.out.at n).getPos.getD 4 0 ∧ 1 ≤ (R.out.at n).sizes.getD 4 0 ∧ (R.out.at n).sizes.getD 4 0 ≤ R.t4 ∧
    (R.out.at n).getPos.getD 4 0 + (R.out.at n).sizes.getD 4 0 ≤ R.oc := hq.box n 4 (show 4 < 5 by omega)
  obtain ⟨⟨l41, l42, l43, l44, l45⟩, -⟩ := l4
  change (R.out.at n).getPos.getD 4 0 = posOf (tileDim 4 R.oc R.t4 0) _ at l42
  have kp : KernOk R.oc R.t4 0 R.oc 1 1 0 := kernOk_plain hc.1 hc.2.1 hc.2.2
  obtain ⟨p0, s0⟩ := win_plain w0
  obtain ⟨p3, s3⟩ := win_plain w3
  have hp3 : (R.out.at n).getPos.getD 3 0 = 0 := by have := w3.o0; have := w3.o1; have := w3.o3; omega
  have hs3 : (R.out.at n).sizes.getD 3 0 = 1 := by have := w3.o0; have := w3.o1; have := w3.o3; omega
  have hs0 : (R.out.at n).sizes.getD 0 0 = 1 := by have := w0.o1; have := w0.o2; omega
  obtain ⟨wp, wsz⟩ := wts_at (nb := R.nb) (oh := R.oh) (ow := R.ow) (ng := 1) (oc := R.oc) (t0 := 1) (t1 := R.t1) (t2 := R.t2) (t3 := 1) (t4 := R.t4) htil R.dw
    (kh := R.kh) (kw := R.kw) (ic := R.ic) (by have := h.kern; omega) (by have := h.kern; omega) (by have := h.inch; omega) R.lo R.lw n
  refine ⟨(R.out.at n).getPos.getD 0 0, _, _, _, _, if ((R.inp.at n).st.map (·.idx)).getD 1 0 = 0 then R.c.pt else 0, _, _, _, _,
    if ((R.inp.at n).st.map (·.idx)).getD 2 0 = 0 then R.c.pl else 0, _, (R.out.at n).sizes.getD 4 0,
    (R.inp.at n).getPos.getD 4 0, (R.inp.at n).sizes.getD 4 0, ?_, ?_, ?_, ?_, wp, ?_, ?_, ?_, ?_, ?_, conv_axis w1 h.rows, conv_axis w2 h.cols, ?_⟩
  · conv_lhs => rw [list5 lo1]
    rw [hp3]; rfl
  · conv_lhs => rw [list5 lo2]
    rw [hs0, hs3]
  · conv_lhs => rw [list5 li1]
    rw [p3, hp3, p0]
  · conv_lhs => rw [list5 li2]
    rw [s0, hs0, s3, hs3]
  · exact wsz
  · have := w0.o0; have := w0.o1; have := w0.o3; omega
  · exact ⟨b4.1, b4.2.1, b4.2.2.2, b4.2.2.1⟩
  · intro k hk0 hk1
    have hw4 := winAt 4 kp _ l41 rfl rfl
    have hst := hw4.start
    have h1 : (R.out.at n).getPos.getD 4 0 = max 0 (_ * R.t4 - 0) := l42.trans hst
    have h2 := Int.mul_nonneg l41.1 (show 0 ≤ R.t4 by omega)
    rw [Int.sub_zero, max_eq_right h2] at h1
    show (k + (R.out.at n).getPos.getD 4 0) / R.t4 * R.t4 = (R.out.at n).getPos.getD 4 0
    rw [h1, Int.add_mul_ediv_right _ _ (by omega), Int.ediv_eq_zero_of_lt hk0 (by omega), Int.zero_add]
  · cases hd : R.dw with
    | true =>
      simp only [if_true]
      have hio := h.depth hd
      obtain ⟨w4, -⟩ := wt 4 (show 4 < 5 by omega) (by
        show KernOk R.oc R.t4 0 R.ic (if R.dw then 1 else R.ic) (if R.dw then 1 else 0) 0
        rw [hd, hio]; exact kp)
      change WinAt R.oc R.t4 0 R.ic (if R.dw then 1 else R.ic) (if R.dw then 1 else 0) 0 ((R.out.at n).getPos.getD 4 0) ((R.out.at n).sizes.getD 4 0)
        ((R.inp.at n).getPos.getD 4 0) ((R.inp.at n).sizes.getD 4 0) _ at w4
      rw [hd, hio] at w4
      exact win_plain w4
    | false =>
      simp only [Bool.false_eq_true, if_false]
      change (R.inp.at n).getPos.getD 4 0 = posOf (kernelDim _ R.ic (if R.dw then 1 else R.ic) (if R.dw then 1 else 0) 0) _ at l44
      change (R.inp.at n).sizes.getD 4 0 = tileSize R.ic (kernelDim _ R.ic (if R.dw then 1 else R.ic) (if R.dw then 1 else 0) 0)
        ⟨posOf (kernelDim _ R.ic (if R.dw then 1 else R.ic) (if R.dw then 1 else 0) 0) _, _⟩ at l45
      rw [hd] at l44 l45
      simp only [Bool.false_eq_true, if_false] at l44 l45
      rw [l44, l45]
      exact kernelDim_all _ _ _ (by have := h.inch; omega)
  · constructor
    · show (if decide _ = true then R.c.pt else 0) = _
      simp only [decide_eq_true_eq]
    · show (if decide _ = true then R.c.pl else 0) = _
      simp only [decide_eq_true_eq]

/-- The object before round `n`. -/
structure ConvAt (R : ConvRun) (wi ww wo : Nat) (n : Nat) (o : ConvObj) : Prop where
  kind : o.dw = R.dw ∧ o.wi = wi ∧ o.ww = ww ∧ o.wo = wo ∧ o.zx = R.zx ∧ o.cfg = R.c ∧ o.bz = R.bz
  eIn : o.inp = R.inp.at n
  eW : o.wts = R.wts.at n
  eOut : o.out = R.out.at n
  tin : o.tin.dims = List.zipWith Dim.mk (R.inp.at n).sizes R.ls ∧ o.tin.base = R.bi
  tw : o.tw.dims = List.zipWith Dim.mk (R.wts.at n).sizes R.lw ∧ o.tw.base = R.bw
  tout : o.tout.dims = List.zipWith Dim.mk (R.out.at n).sizes R.lo ∧ o.tout.base = R.bo
  nb : o.nb = 1
  tcfg : o.tcfg = convPads R.dw (R.inp.at n) R.c

theorem ioDims_one (dw : Bool) (a b c d : Int) : ioDims dw [1, a, b, c, d] = [1, a, b, c, d] := by cases dw <;> rfl

theorem ConvOk.atStart {R : ConvRun} (h : ConvOk R) (wi ww wo : Nat) : ConvAt R wi ww wo 0 (R.start wi ww wo).obj := by
  obtain ⟨b, oy, osy, iy, isy, pt, ox, osx, ix, isx, pl, k0, kn, c0, cn, H⟩ := h.cell 0
  have e1 : ioDims R.dw R.inp.sizes = (R.inp.at 0).sizes := by
    have : R.inp.sizes = (R.inp.at 0).sizes := rfl
    rw [this, H.isz, ioDims_one]
  have e2 : ioDims R.dw R.out.sizes = (R.out.at 0).sizes := by
    have : R.out.sizes = (R.out.at 0).sizes := rfl
    rw [this, H.osz, ioDims_one]
  refine ⟨⟨rfl, rfl, rfl, rfl, rfl, rfl, rfl⟩, rfl, rfl, rfl, ⟨?_, rfl⟩, ⟨rfl, rfl⟩, ⟨?_, rfl⟩, ?_, rfl⟩
  · show List.zipWith Dim.mk (ioDims R.dw R.inp.sizes) R.ls = _
    rw [e1]
  · show List.zipWith Dim.mk (ioDims R.dw R.out.sizes) R.lo = _
    rw [e2]
  · show (R.inp.at 0).sizes.getD 0 0 = 1
    rw [H.isz]; rfl

theorem ConvAt.next {R : ConvRun} (h : ConvOk R) {wi ww wo n : Nat} {o : ConvObj} (H : ConvAt R wi ww wo n o) : ConvAt R wi ww wo (n + 1) o.update := by
  obtain ⟨⟨k1, k2, k3, k4, k5, k6, k7⟩, h1, h2, h3, h4, h5, h6, h7, h8⟩ := H
  obtain ⟨b, oy, osy, iy, isy, pt, ox, osx, ix, isx, pl, k0, kn, c0, cn, C⟩ := h.cell n
  obtain ⟨b', oy', osy', iy', isy', pt', ox', osx', ix', isx', pl', k0', kn', c0', cn', C'⟩ := h.cell (n + 1)
  have e1 : o.inp.next = R.inp.at (n + 1) := by rw [h1]; rfl
  have e2 : o.out.next = R.out.at (n + 1) := by rw [h3]; rfl
  have e3 : o.wts.next = R.wts.at (n + 1) := by rw [h2]; rfl
  have il : R.ls.length = 5 := by rw [h.iplace.len, h.ilen]
  have ol : R.lo.length = 5 := h.oplace.len
  have wl : ∀ k, (R.wtile k).length = R.lw.length := fun k => by rw [h.wlen]; unfold ConvRun.wtile ConvRun.wshape; split <;> rfl
  refine ⟨⟨k1, k2, k3, k4, k5, k6, k7⟩, e1, e3, e2, ⟨?_, h4.2⟩, ⟨?_, h5.2⟩, ⟨?_, h6.2⟩, h7, ?_⟩
  · show List.zipWith _ o.tin.dims (ioDims o.dw o.inp.next.sizes) = _
    rw [h4.1, e1, k1, C'.isz, ioDims_one, C.isz, zip_setShape (by rw [il]; rfl) (by rw [il]; rfl)]
  · show List.zipWith _ o.tw.dims o.wts.next.sizes = _
    rw [h5.1, e3, C'.wsz, C.wsz, zip_setShape (wl _) (wl _)]
  · show List.zipWith _ o.tout.dims (ioDims o.dw o.out.next.sizes) = _
    rw [h6.1, e2, k1, C'.osz, ioDims_one, C.osz, zip_setShape (by rw [ol]; rfl) (by rw [ol]; rfl)]
  · show convPads o.dw o.inp.next o.cfg = _
    rw [k1, k6, e1]

theorem dwBehind_range (it : TIt) (d : Nat) {p : Int} (h : 0 ≤ p ∧ p < 256) : 0 ≤ dwBehind it d p ∧ dwBehind it d p < 256 := by
  unfold dwBehind
  simp only
  split <;> omega

theorem convPads_typed (dw : Bool) (it : TIt) {c : ConvCfg} (h : c.Typed) : (convPads dw it c).Typed := by
  obtain ⟨h1, h2, h3, h4, h5, h6, h7, h8⟩ := h
  have k1 := dwBehind_range it 1 h4
  have k2 := dwBehind_range it 2 h6
  refine ⟨h1, h2, ?_, ?_, ?_, ?_, h7, h8⟩
  · show 0 ≤ (if it.isFirst 1 then c.pt else 0) ∧ (if it.isFirst 1 then c.pt else 0) < 256
    split <;> omega
  · show 0 ≤ (if dw then dwBehind it 1 c.pb else if it.isLast 1 then c.pb else 0) ∧ (if dw then dwBehind it 1 c.pb else if it.isLast 1 then c.pb else 0) < 256
    split
    · exact k1
    · split <;> omega
  · show 0 ≤ (if it.isFirst 2 then c.pl else 0) ∧ (if it.isFirst 2 then c.pl else 0) < 256
    split <;> omega
  · show 0 ≤ (if dw then dwBehind it 2 c.pr else if it.isLast 2 then c.pr else 0) ∧ (if dw then dwBehind it 2 c.pr else if it.isLast 2 then c.pr else 0) < 256
    split
    · exact k2
    · split <;> omega

theorem strides5 {tiles loc : List Int} {b size : Int} (h : Place tiles loc b size) (hl : tiles.length = 5) : ∃ a0 a1 a2 a3, loc = [a0, a1, a2, a3, 1] := by
  have h1 := h.len
  have h2 := h.inner
  rw [hl] at h1
  match loc, h1 with
  | [a, b, c, d, e], _ =>
    simp at h2
    exact ⟨a, b, c, d, by rw [h2]⟩

/-- `Issue` in round `n`, with local buffers that hold the tiles. -/
theorem ConvOk.issue {R : ConvRun} (h : ConvOk R) {wi ww wo n : Nat} {o : ConvObj} (H : ConvAt R wi ww wo n o) (hwd : wi = 8 ∧ ww = 8 ∧ wo = 32) (hn : n < R.rounds)
    {b oy osy iy isy pt ox osx ix isx pl k0 kn c0 cn : Int} (C : ConvCell R n b oy osy iy isy pt ox osx ix isx pl k0 kn c0 cn) {lin lw lz lout : Buf}
    (hl1 : lin.size = R.lin.size) (hl2 : lw.size = R.lwt.size) (hl3 : lout.size = R.lout.size)
    (vin : ∀ y, InShape [1, isy, isx, 1, cn] y → InShape R.ishape (addPos y [b, iy, ix, 0, c0]) ∧
      lin.get (R.bi + offset R.ls y) = R.gin.buf.get (offset R.gin.strides (addPos y [b, iy, ix, 0, c0])))
    (vw : ∀ y, InShape (R.wtile kn) y → InShape R.wshape (addPos y (if R.dw then [0, 0, k0] else [0, 0, 0, 0, k0])) ∧
      lw.get (R.bw + offset R.lw y) = R.gw.buf.get (offset R.gw.strides (addPos y (if R.dw then [0, 0, k0] else [0, 0, 0, 0, k0]))))
    (vz : lz.rd R.bz = some (R.gz.get k0)) :
    ∃ r1, o.issue lin lw lz lout = some (.ok, r1) ∧ r1.size = lout.size ∧ ∀ y x k, InShape [osy, osx, kn] [y, x, k] →
      r1.get (R.bo + at5 R.lo y x k) = R.value b (y + oy) (x + ox) (k + k0) := by
  obtain ⟨⟨k1, k2, k3, k4, k5, k6, k7⟩, h1, h2, h3, h4, h5, h6, h7, h8⟩ := H
  obtain ⟨a0, a1, a2, a3, els⟩ := strides5 h.iplace h.ilen
  obtain ⟨e0, e1, e2, e3, elo⟩ := strides5 h.oplace rfl
  have hti : o.tin.dims = [⟨1, a0⟩, ⟨isy, a1⟩, ⟨isx, a2⟩, ⟨1, a3⟩, ⟨cn, 1⟩] ∧ o.tin.base = R.bi := by rw [h4.1, h4.2, C.isz, els]; exact ⟨rfl, rfl⟩
  have hto : o.tout.dims = [⟨1, e0⟩, ⟨osy, e1⟩, ⟨osx, e2⟩, ⟨1, e3⟩, ⟨kn, 1⟩] ∧ o.tout.base = R.bo := by rw [h6.1, h6.2, C.osz, elo]; exact ⟨rfl, rfl⟩
  have hq := tileSeq_range (shape := R.oshape) h.tiling rfl R.lo
  change TileSeq R.oshape R.tiles R.rounds (fun n => (R.out.at n).getPos) (fun n => (R.out.at n).sizes) at hq
  have oloc : ∀ y, InShape [1, osy, osx, 1, kn] y → InShape R.tiles y := fun y hy => hq.local_ (n := n) (by rw [C.osz]; exact hy)
  have iloc : ∀ y, InShape [1, isy, isx, 1, cn] y → InShape R.itiles y := fun y hy =>
    inShape_mono (s := (R.inp.at n).sizes) (by rw [C.isz, h.ilen]; rfl) (fun d hd => h.fits n d hn (by rw [h.ilen] at hd; exact hd)) (by rw [C.isz]; exact hy)
  have wloc : ∀ y, InShape (R.wtile kn) y → InShape (R.wtile R.t4) y := by
    intro y hy
    have := C.hk
    unfold ConvRun.wtile at hy ⊢
    cases hd0 : R.dw with
    | true =>
      rw [hd0] at hy
      simp only [if_true] at hy ⊢
      obtain ⟨i, j, k, rfl⟩ := inShape3' hy
      exact ⟨hy.1, hy.2.1, ⟨hy.2.2.1.1, lt_of_lt_of_le hy.2.2.1.2 this.2.2.2⟩, trivial⟩
    | false =>
      rw [hd0] at hy
      simp only [Bool.false_eq_true, if_false] at hy ⊢
      obtain ⟨g, i, j, c, k, rfl⟩ := inShape5 hy
      exact ⟨hy.1, hy.2.1, hy.2.2.1, hy.2.2.2.1, ⟨hy.2.2.2.2.1.1, lt_of_lt_of_le hy.2.2.2.2.1.2 this.2.2.2⟩, trivial⟩
  have hib : ∀ y, InShape [1, isy, isx, 1, cn] y → (0 ≤ R.bi + offset [a0, a1, a2, a3, 1] y ∧ R.bi + offset [a0, a1, a2, a3, 1] y < lin.size) ∧
      InRange 8 (lin.get (R.bi + offset [a0, a1, a2, a3, 1] y)) := by
    intro y hy
    obtain ⟨v1, v2⟩ := vin y hy
    rw [← els, v2, hl1]
    exact ⟨h.iplace.inb y (iloc y hy), (h.inb _ v1).2⟩
  have hob : ∀ y, InShape [1, osy, osx, 1, kn] y → 0 ≤ R.bo + offset [e0, e1, e2, e3, 1] y ∧ R.bo + offset [e0, e1, e2, e3, 1] y < lout.size := by
    intro y hy
    rw [← elo, hl3]
    exact h.oplace.inb y (oloc y hy)
  have hoj : ∀ y z, InShape [1, osy, osx, 1, kn] y → InShape [1, osy, osx, 1, kn] z → offset [e0, e1, e2, e3, 1] y = offset [e0, e1, e2, e3, 1] z → y = z := by
    intro y z hy hz e
    rw [← elo] at e
    exact h.oplace.inj y z (oloc y hy) (oloc z hz) e
  have hwr : ∀ y, InShape (R.wtile kn) y → (0 ≤ R.bw + offset R.lw y ∧ R.bw + offset R.lw y < lw.size) ∧ InRange 8 (lw.get (R.bw + offset R.lw y)) := by
    intro y hy
    obtain ⟨v1, v2⟩ := vw y hy
    rw [v2, hl2]
    exact ⟨h.wbound y (wloc y hy), (h.wb _ v1).2⟩
  have htc : o.tcfg.Typed := by rw [h8]; exact convPads_typed _ _ h.typed
  have f1 : o.tcfg.sh = R.c.sh := by rw [h8]; rfl
  have f2 : o.tcfg.sw = R.c.sw := by rw [h8]; rfl
  have f3 : o.tcfg.dh = R.c.dh := by rw [h8]; rfl
  have f4 : o.tcfg.dw = R.c.dw := by rw [h8]; rfl
  have f5 : o.tcfg.pt = pt := by rw [h8]; exact C.pads.1
  have f6 : o.tcfg.pl = pl := by rw [h8]; exact C.pads.2
  have hk := h.kern
  have ck := C.hk
  have hwl := h.wlen
  have hzk := h.zuse k0 ck.1 (by omega)
  have hrd : ∀ r q c, InShape [isy, isx, cn] [r, q, c] → lin.get (R.bi + at5 [a0, a1, a2, a3, 1] r q c) = R.input b (r + iy) (q + ix) (c + c0) := by
    intro r q c hy
    have := (vin _ (up5 hy)).2
    rw [els] at this
    unfold at5
    rw [this]
    unfold ConvRun.input
    show R.gin.buf.get (offset R.gin.strides [0 + b, r + iy, q + ix, 0 + 0, c + c0]) = _
    rw [Int.zero_add, Int.zero_add]
  cases hd : R.dw with
  | false =>
    have hc := C.hc
    have ht := h.taps
    rw [hd] at hc ht hzk
    simp only [Bool.false_eq_true, if_false] at hc ht hzk
    obtain ⟨rfl, rfl⟩ := hc
    obtain ⟨w0, w1, w2, w3, w4, elw⟩ : ∃ w0 w1 w2 w3 w4, R.lw = [w0, w1, w2, w3, w4] := by
      unfold ConvRun.wshape at hwl
      rw [hd] at hwl
      simp only [Bool.false_eq_true, if_false] at hwl
      exact ⟨_, _, _, _, _, list5 hwl⟩
    have ewt : ∀ k, R.wtile k = [1, R.kh, R.kw, R.ic, k] := fun k => by unfold ConvRun.wtile; rw [hd]; rfl
    have htw : o.tw.dims = [⟨1, w0⟩, ⟨R.kh, w1⟩, ⟨R.kw, w2⟩, ⟨R.ic, w3⟩, ⟨kn, w4⟩] ∧ o.tw.base = R.bw := by
      rw [h5.1, h5.2, C.wsz, elw, ewt]; exact ⟨rfl, rfl⟩
    obtain ⟨r1, g1, g2, g3⟩ := conv_issue (o := o) (lin := lin) (lw := lw) (lz := lz) (lout := lout) (k1.trans hd) ⟨k2.trans hwd.1, k3.trans hwd.2.1, k4.trans hwd.2.2⟩
      hti htw hto ⟨C.ah.i1, C.aw.i1, h.inch.1⟩ ⟨hk.1.1, hk.2.1, ck.2.1⟩ hib
      (fun y hy => by rw [← elw]; exact hwr y (by rw [ewt]; exact hy)) hob hoj htc (by rw [f3, f4]; exact h.dil) (by rw [k5]; exact h.zin)
      (by rw [k7, vz, hzk])
      (by
        intro y y0 y1
        obtain ⟨i, i0, i1, t0, t1⟩ := h.meet hd (y + oy) (by have := C.ah.o1; have := hq.box n 1 (show 1 < 5 by omega); rw [C.opos] at this; have := this.1; change 0 ≤ oy at this; omega)
          (by have := hq.box n 1 (show 1 < 5 by omega); rw [C.opos, C.osz] at this; have := this.2.2.2; change oy + osy ≤ R.oh at this; omega)
        have := (C.ah.inside h.dil.1 ⟨y0, y1⟩ ⟨i0, i1⟩).mp ⟨t0, t1⟩
        exact ⟨i, i0, i1, by rw [f1, f3, f5]; exact this⟩) ht
    refine ⟨r1, g1, g2, ?_⟩
    intro y x k hs
    rw [elo, g3 y x k hs, f1, f2, f3, f4, f5, f6, k5]
    unfold ConvRun.value
    rw [hd]
    simp only [Bool.false_eq_true, if_false]
    rw [← convSum_shift C.ah C.aw h.dil.1 h.dil.2 hs.1 hs.2.1]
    refine convSum_congr ?_ ?_
    · intro r q c hr hq' hc'
      rw [hrd r q c ⟨hr, hq', hc', trivial⟩, Int.add_zero]
    · intro i j c hi hj hc'
      have := (vw [0, i, j, c, k] (by rw [ewt]; exact ⟨⟨by omega, by omega⟩, hi, hj, hc', hs.2.2⟩)).2
      rw [hd, elw] at this
      simp only [Bool.false_eq_true, if_false] at this
      rw [this]
      unfold ConvRun.weight
      rw [hd]
      simp only [Bool.false_eq_true, if_false]
      show R.gw.buf.get (offset R.gw.strides [0 + 0, i + 0, j + 0, c + 0, k + k0]) = _
      simp only [Int.add_zero]
  | true =>
    have hc := C.hc
    have ht := h.taps
    rw [hd] at hc ht hzk
    simp only [if_true] at hc ht hzk
    obtain ⟨rfl, rfl⟩ := hc
    obtain ⟨w1, w2, w4, elw⟩ : ∃ w1 w2 w4, R.lw = [w1, w2, w4] := by
      unfold ConvRun.wshape at hwl
      rw [hd] at hwl
      simp only [if_true] at hwl
      match R.lw, hwl with
      | [p, q, r], _ => exact ⟨p, q, r, rfl⟩
    have ewt : ∀ k, R.wtile k = [R.kh, R.kw, k] := fun k => by unfold ConvRun.wtile; rw [hd]; rfl
    have htw : o.tw.dims = [⟨R.kh, w1⟩, ⟨R.kw, w2⟩, ⟨cn, w4⟩] ∧ o.tw.base = R.bw := by
      rw [h5.1, h5.2, C.wsz, elw, ewt]; exact ⟨rfl, rfl⟩
    have kr := h.rows
    have kc := h.cols
    obtain ⟨r1, g1, g2, g3⟩ := dw_issue (o := o) (lin := lin) (lw := lw) (lz := lz) (lout := lout) (zw := R.gz.get c0) (k1.trans hd)
      ⟨k2.trans hwd.1, k3.trans hwd.2.1, k4.trans hwd.2.2⟩ h7
      hti htw hto ⟨C.ah.i1, C.aw.i1, ck.2.1⟩ ⟨hk.1.1, hk.2.1⟩ ⟨C.ah.o1, C.aw.o1⟩ hib
      (fun y hy => by rw [← elw]; exact hwr y (by rw [ewt]; exact hy)) hob hoj htc (by rw [f3, f4]; exact h.dil) (by rw [k5]; exact h.zin)
      (h.zwts c0 ck.1 (by omega)) (by rw [k7, vz]) (by rw [f1, f2]; have := kr.hs; have := kc.hs; omega)
      (by rw [f3, f4, f5, f6]; have := kr.hp; have := kc.hp; have := C.ah.p1; have := C.aw.p1; omega)
      (by rw [f1, f3, f5]; exact C.ah.taps (by have := kr.hs; omega) kr.hp.2) (by rw [f2, f4, f6]; exact C.aw.taps (by have := kc.hs; omega) kc.hp.2) ht
    refine ⟨r1, g1, g2, ?_⟩
    intro y x k hs
    rw [elo, g3 y x k hs, f1, f2, f3, f4, f5, f6, k5]
    unfold ConvRun.value
    rw [hd]
    simp only [if_true]
    rw [← convSum_shift C.ah C.aw h.dil.1 h.dil.2 hs.1 hs.2.1]
    refine convSum_congr ?_ ?_
    · intro r q c hr hq' hc'
      rw [hrd r q k ⟨hr, hq', hs.2.2⟩]
    · intro i j c hi hj hc'
      have := (vw [i, j, k] (by rw [ewt]; exact ⟨hi, hj, hs.2.2⟩)).2
      rw [hd, elw] at this
      simp only [if_true] at this
      rw [this]
      have hz := h.zuse (k + c0) (by have := hs.2.2.1.1; omega) (by have := hs.2.2.1.2; omega)
      rw [hd] at hz
      simp only [if_true] at hz
      rw [hz, C.tile k hs.2.2.1.1 hs.2.2.1.2]
      unfold ConvRun.weight
      rw [hd]
      simp only [if_true]
      show R.gw.buf.get (offset R.gw.strides [i + 0, j + 0, k + c0]) - _ = _
      simp only [Int.add_zero]

/-- The first part of a round: copy the tiles of input, weights and zero points, `Issue`. -/
theorem ConvOk.stage {R : ConvRun} (h : ConvOk R) {n : Nat} {o : ConvObj} (H : ConvAt R 8 8 32 n o) (hn : n < R.rounds)
    {b oy osy iy isy pt ox osx ix isx pl k0 kn c0 cn : Int} (C : ConvCell R n b oy osy iy isy pt ox osx ix isx pl k0 kn c0 cn) {l0 w0 z0 r0 : Buf}
    (j2 : l0.size = R.lin.size) (j3 : w0.size = R.lwt.size) (j4 : z0.size = R.lz.size) (j5 : r0.size = R.lout.size) :
    ∃ l1 w1 z1 r1,
      copyBox o.tin.shape R.gin.buf 0 R.gin.strides o.inp.getPos o.tin.base o.inp.strides (zeros o.tin.shape) l0 = some l1 ∧
      copyBox o.tw.shape R.gw.buf 0 R.gw.strides o.wtsPos o.tw.base o.wts.strides (zeros o.tw.shape) w0 = some w1 ∧
      copyBox [o.tw.shape.getLastD 0] R.gz 0 [1] [o.wtsPos.getLastD 0] o.bz [1] [0] z0 = some z1 ∧
      o.issue l1 w1 z1 r0 = some (.ok, r1) ∧ l1.size = l0.size ∧ w1.size = w0.size ∧ z1.size = z0.size ∧ r1.size = r0.size ∧
      o.tout.shape = [1, osy, osx, 1, kn] ∧
      ∀ y x k, InShape [osy, osx, kn] [y, x, k] → r1.get (R.bo + at5 R.lo y x k) = R.value b (y + oy) (x + ox) (k + k0) := by
  have il : R.ls.length = 5 := by rw [h.iplace.len, h.ilen]
  have ol : R.lo.length = 5 := h.oplace.len
  have wl : ∀ k, (R.wtile k).length = R.lw.length := fun k => by rw [h.wlen]; unfold ConvRun.wtile ConvRun.wshape; split <;> rfl
  have ck := C.hk
  have hc := h.chans
  have ez : ∀ (sz y : List Int), InShape sz y → addPos y (zeros sz) = y := fun sz y hy => addPos_zeros (inShape_length _ _ hy).symm
  have iloc : ∀ y, InShape [1, isy, isx, 1, cn] y → InShape R.itiles y := fun y hy =>
    inShape_mono (s := (R.inp.at n).sizes) (by rw [C.isz, h.ilen]; rfl) (fun d hd => h.fits n d hn (by rw [h.ilen] at hd; exact hd)) (by rw [C.isz]; exact hy)
  have wloc : ∀ y, InShape (R.wtile kn) y → InShape (R.wtile R.t4) y ∧ InShape R.wshape (addPos y (if R.dw then [0, 0, k0] else [0, 0, 0, 0, k0])) := by
    intro y hy
    unfold ConvRun.wtile at hy
    unfold ConvRun.wtile ConvRun.wshape
    cases hd0 : R.dw with
    | true =>
      rw [hd0] at hy
      simp only [if_true] at hy ⊢
      obtain ⟨i, j, k, rfl⟩ := inShape3' hy
      obtain ⟨y1, y2, y3, -⟩ := hy
      refine ⟨⟨y1, y2, ⟨y3.1, by omega⟩, trivial⟩, ?_⟩
      show InShape [R.kh, R.kw, R.oc] [i + 0, j + 0, k + k0]
      exact ⟨⟨by omega, by omega⟩, ⟨by omega, by omega⟩, ⟨by omega, by omega⟩, trivial⟩
    | false =>
      rw [hd0] at hy
      simp only [Bool.false_eq_true, if_false] at hy ⊢
      obtain ⟨g, i, j, c, k, rfl⟩ := inShape5 hy
      obtain ⟨y0, y1, y2, y3, y4, -⟩ := hy
      refine ⟨⟨y0, y1, y2, y3, ⟨y4.1, by omega⟩, trivial⟩, ?_⟩
      show InShape [1, R.kh, R.kw, R.ic, R.oc] [g + 0, i + 0, j + 0, c + 0, k + k0]
      exact ⟨⟨by omega, by omega⟩, ⟨by omega, by omega⟩, ⟨by omega, by omega⟩, ⟨by omega, by omega⟩,
        ⟨by omega, by omega⟩, trivial⟩
  have iglob : ∀ y, InShape [1, isy, isx, 1, cn] y → InShape R.ishape (addPos y [b, iy, ix, 0, c0]) := by
    intro y hy
    obtain ⟨g, r, q, e, c, rfl⟩ := inShape5 hy
    obtain ⟨y0, y1, y2, y3, y4, -⟩ := hy
    have hb := C.hb
    have a1 := C.ah.sh.low
    have a2 := C.ah.sh.high
    have a3 := C.aw.sh.low
    have a4 := C.aw.sh.high
    have hcc : 0 ≤ c0 ∧ c0 + cn ≤ R.ic := by
      have hcc := C.hc
      have hdp := h.depth
      split at hcc
      · have := hdp ‹_›
        omega
      · omega
    show InShape [R.nb, R.ih, R.iw, 1, R.ic] [g + b, r + iy, q + ix, e + 0, c + c0]
    exact ⟨⟨by omega, by omega⟩, ⟨by omega, by omega⟩, ⟨by omega, by omega⟩, ⟨by omega, by omega⟩, ⟨by omega, by omega⟩, trivial⟩
  have ewp : o.wtsPos = if R.dw then [0, 0, k0] else [0, 0, 0, 0, k0] := by
    unfold ConvObj.wtsPos
    rw [H.kind.1, H.eW, C.wpos]
    rfl
  have ewl : o.wtsPos.getLastD 0 = k0 := by rw [ewp]; split <;> rfl
  have wtl : (R.wtile kn).getLastD 0 = kn := by unfold ConvRun.wtile; split <;> rfl
  have esi : o.tin.shape = [1, isy, isx, 1, cn] := by
    show o.tin.dims.map (·.shape) = _
    rw [H.tin.1, C.isz, zip_shape (by rw [il]; rfl)]
  have eso : o.tout.shape = [1, osy, osx, 1, kn] := by
    show o.tout.dims.map (·.shape) = _
    rw [H.tout.1, C.osz, zip_shape (by rw [ol]; rfl)]
  have esw : o.tw.shape = R.wtile kn := by
    show o.tw.dims.map (·.shape) = _
    rw [H.tw.1, C.wsz, zip_shape (wl kn)]
  obtain ⟨l1, f1, f2, f3, -⟩ := copyBox_ok (size := [1, isy, isx, 1, cn]) (src := R.gin.buf) (sb := 0) (ss := R.gin.strides) (sp := [b, iy, ix, 0, c0])
    (db := R.bi) (ds := R.ls) (dp := zeros [1, isy, isx, 1, cn]) (dst := l0)
    (fun y hy => by rw [Int.zero_add]; exact (h.inb _ (iglob y hy)).1)
    (fun y hy => by rw [ez _ y hy, j2]; exact h.iplace.inb y (iloc y hy))
    (fun y z hy hz e => by
      rw [ez _ y hy, ez _ z hz] at e
      exact h.iplace.inj y z (iloc y hy) (iloc z hz) (by omega))
  obtain ⟨w1, p1, p2, p3, -⟩ := copyBox_ok (size := R.wtile kn) (src := R.gw.buf) (sb := 0) (ss := R.gw.strides)
    (sp := if R.dw then [0, 0, k0] else [0, 0, 0, 0, k0]) (db := R.bw) (ds := R.lw) (dp := zeros (R.wtile kn)) (dst := w0)
    (fun y hy => by rw [Int.zero_add]; exact (h.wb _ (wloc y hy).2).1)
    (fun y hy => by rw [ez _ y hy, j3]; exact h.wbound y (wloc y hy).1)
    (fun y z hy hz e => by
      rw [ez _ y hy, ez _ z hz] at e
      exact h.winj y z (wloc y hy).1 (wloc z hz).1 (by omega))
  have one : ∀ y, InShape [kn] y → ∃ k, y = [k] ∧ 0 ≤ k ∧ k < kn := by
    intro y hy
    match y, hy with
    | [k], hy => exact ⟨k, rfl, hy.1⟩
  have off1 : ∀ k p : Int, offset [1] (addPos [k] [p]) = k + p := fun k p => by
    show (k + p) * 1 + 0 = k + p
    omega
  have hzs := h.zsize
  have hzp := h.zplace
  obtain ⟨z1, q1, q2, q3, -⟩ := copyBox_ok (size := [kn]) (src := R.gz) (sb := 0) (ss := [1]) (sp := [k0]) (db := R.bz) (ds := [1]) (dp := [0]) (dst := z0)
    (fun y hy => by
      obtain ⟨k, rfl, y0, y1⟩ := one y hy
      rw [off1]; omega)
    (fun y hy => by
      obtain ⟨k, rfl, y0, y1⟩ := one y hy
      rw [off1]; omega)
    (fun y z hy hz e => by
      obtain ⟨k, rfl, y0, y1⟩ := one y hy
      obtain ⟨k', rfl, y0', y1'⟩ := one z hz
      rw [off1, off1] at e
      have : k = k' := by omega
      rw [this])
  have vz : z1.rd R.bz = some (R.gz.get k0) := by
    have := q3 [0] ⟨⟨by omega, by omega⟩, trivial⟩
    rw [off1, off1] at this
    simp only [Int.zero_add, Int.add_zero] at this
    rw [Buf.rd_some (by omega), this]
  obtain ⟨r1, g1, g2, g3⟩ := h.issue H ⟨rfl, rfl, rfl⟩ hn C (lin := l1) (lw := w1) (lz := z1) (lout := r0) (by omega) (by omega) (by omega)
    (fun y hy => ⟨iglob y hy, by have := f3 y hy; rwa [ez _ y hy, Int.zero_add] at this⟩)
    (fun y hy => ⟨(wloc y hy).2, by have := p3 y hy; rwa [ez _ y hy, Int.zero_add] at this⟩) vz
  refine ⟨l1, w1, z1, r1, ?_, ?_, ?_, g1, f2, p2, q2, g2, eso, g3⟩
  · rw [esi, H.eIn, H.tin.2, C.ipos]
    exact f1
  · rw [esw, ewp, H.eW, H.tw.2]
    exact p1
  · rw [esw, ewl, wtl, H.kind.2.2.2.2.2.2]
    exact q1

/-- All rounds. -/
theorem conv_run {R : ConvRun} (h : ConvOk R) :
    ∃ s, R.run 8 8 32 = some s ∧ s.status = .ok ∧ s.gout.size = R.gout.size ∧
      (∀ b y x k, InShape R.oshape [b, y, x, 0, k] → s.gout.get (offset R.gos [b, y, x, 0, k]) = R.value b y x k) ∧
      ∀ a, (∀ x, InShape R.oshape x → offset R.gos x ≠ a) → s.gout.get a = R.gout.get a := by
  have hq := tileSeq_range (shape := R.oshape) h.tiling rfl R.lo
  change TileSeq R.oshape R.tiles R.rounds (fun n => (R.out.at n).getPos) (fun n => (R.out.at n).sizes) at hq
  let J : Nat → ConvHost → Prop := fun n s => s.status = .ok ∧ s.lin.size = R.lin.size ∧ s.lw.size = R.lwt.size ∧ s.lz.size = R.lz.size ∧
    s.lout.size = R.lout.size ∧ s.gout.size = R.gout.size ∧ ConvAt R 8 8 32 n s.obj
  obtain ⟨s', k1, k2, k3⟩ := tile_loop hq h.outj (fun x => R.value (x.getD 0 0) (x.getD 1 0) (x.getD 2 0) (x.getD 4 0))
    (fun s => ConvHost.round R.gin R.gw R.gz R.gos s) (fun s => s.gout) J (R.start 8 8 32) ⟨rfl, rfl, rfl, rfl, rfl, rfl, h.atStart 8 8 32⟩ (by
    rintro n ⟨o, l0, w0, z0, r0, g0, st⟩ hn ⟨j1, j2, j3, j4, j5, j6, H⟩
    simp only at j1 j2 j3 j4 j5 j6 H
    obtain ⟨b, oy, osy, iy, isy, pt, ox, osx, ix, isx, pl, k0, kn, c0, cn, C⟩ := h.cell n
    obtain ⟨l1, w1, z1, r1, f1, p1, q1, g1, f2, p2, q2, g2, eso, g3⟩ := h.stage H hn C j2 j3 j4 j5
    have ez : ∀ (sz y : List Int), InShape sz y → addPos y (zeros sz) = y := fun sz y hy => addPos_zeros (inShape_length _ _ hy).symm
    have oloc : ∀ y, InShape [1, osy, osx, 1, kn] y → InShape R.tiles y := fun y hy => hq.local_ (n := n) (by rw [C.osz]; exact hy)
    have oglob : ∀ y, InShape [1, osy, osx, 1, kn] y → InShape R.oshape (addPos y [b, oy, ox, 0, k0]) := fun y hy => by
      have := hq.global (n := n) (y := y) (by rw [C.osz]; exact hy)
      rwa [C.opos] at this
    obtain ⟨g', e1, e2, e3, e4⟩ := copyBox_ok (size := [1, osy, osx, 1, kn]) (src := r1) (sb := R.bo) (ss := R.lo) (sp := zeros [1, osy, osx, 1, kn])
      (db := 0) (ds := R.gos) (dp := [b, oy, ox, 0, k0]) (dst := g0)
      (fun y hy => by rw [ez _ y hy, g2, j5]; exact h.oplace.inb y (oloc y hy))
      (fun y hy => by rw [Int.zero_add, j6]; exact h.outb _ (oglob y hy))
      (fun y z hy hz e => by
        rw [Int.zero_add, Int.zero_add] at e
        exact addPos_inj (by rw [← inShape_length _ _ hy]; rfl) (by rw [← inShape_length _ _ hz]; rfl) (h.outj _ _ (oglob y hy) (oglob z hz) e))
    simp only [Int.zero_add] at e3 e4
    refine ⟨⟨o.update, l1, w1, z1, r1, g', .ok⟩, ?_, ⟨rfl, by simp only; omega, by simp only; omega, by simp only; omega, by simp only; omega,
      by simp only; omega, H.next h⟩, e2, ?_, ?_⟩
    · unfold ConvHost.round
      simp only
      rw [f1, Option.bind_some, p1, Option.bind_some, q1, Option.bind_some, g1, Option.bind_some]
      rw [eso, H.eOut, H.tout.2, C.opos]
      show (copyBox _ r1 R.bo R.lo _ 0 R.gos _ g0).map _ = _
      rw [e1, j1]
      rfl
    · intro y hy
      rw [C.osz] at hy
      rw [C.opos, e3 y hy, ez _ y hy]
      obtain ⟨g, r, q, e, k, rfl⟩ := inShape5 hy
      obtain ⟨y0, y1, y2, y3, y4, -⟩ := hy
      obtain rfl : g = 0 := by omega
      obtain rfl : e = 0 := by omega
      have := g3 r q k ⟨y1, y2, y4, trivial⟩
      unfold at5 at this
      rw [this]
      show _ = R.value (0 + b) (r + oy) (q + ox) (k + k0)
      rw [Int.zero_add]
    · intro a ha
      refine e4 a fun y hy => ?_
      have := ha y (by rw [C.osz]; exact hy)
      rwa [C.opos] at this)
  exact ⟨s', k1, k2.1, k3.size, fun b y x k hx => k3.elem _ hx, k3.frame⟩

end Mli.Rt
