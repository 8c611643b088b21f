import Verif.Spec.Resize
import Verif.Model.Resize
import Verif.Lemmas.Pos
import Verif.Lemmas.Math
import Mathlib.Data.Fin.VecNotation

/-! # Bilinear resizing (C43) -/

namespace Mli

open Spec

theorem nearIdx_range {n : Int} (h : 1 ≤ n) (i : Int) : 0 ≤ nearIdx n i ∧ nearIdx n i < n := by
  unfold nearIdx; omega

/-- The specification is a convex combination. -/
theorem bilinear_convex (s : Nat) {H W : Int} (hH : 1 ≤ H) (hW : 1 ≤ W) (v : Int → Int → Int) (y x : Int) :
    Convex4 (2 ^ (2 * s)) H W v (bilinear s H W v y x) := by
  have hp := two_pow_pos s
  have h1 := Int.emod_nonneg y hp.ne'
  have h2 := Int.emod_lt_of_pos y hp
  have h3 := Int.emod_nonneg x hp.ne'
  have h4 := Int.emod_lt_of_pos x hp
  refine ⟨![nearIdx H (y / 2 ^ s), nearIdx H (y / 2 ^ s), nearIdx H (y / 2 ^ s + 1), nearIdx H (y / 2 ^ s + 1)],
    ![nearIdx W (x / 2 ^ s), nearIdx W (x / 2 ^ s + 1), nearIdx W (x / 2 ^ s), nearIdx W (x / 2 ^ s + 1)],
    ![(2 ^ s - y % 2 ^ s) * (2 ^ s - x % 2 ^ s), (2 ^ s - y % 2 ^ s) * (x % 2 ^ s), (y % 2 ^ s) * (2 ^ s - x % 2 ^ s),
      (y % 2 ^ s) * (x % 2 ^ s)], ?_, ?_, rfl⟩
  · intro k
    match k with
    | 0 => exact ⟨(nearIdx_range hH _).1, (nearIdx_range hH _).2, (nearIdx_range hW _).1, (nearIdx_range hW _).2, Int.mul_nonneg (by omega) (by omega)⟩
    | 1 => exact ⟨(nearIdx_range hH _).1, (nearIdx_range hH _).2, (nearIdx_range hW _).1, (nearIdx_range hW _).2, Int.mul_nonneg (by omega) (by omega)⟩
    | 2 => exact ⟨(nearIdx_range hH _).1, (nearIdx_range hH _).2, (nearIdx_range hW _).1, (nearIdx_range hW _).2, Int.mul_nonneg (by omega) (by omega)⟩
    | 3 => exact ⟨(nearIdx_range hH _).1, (nearIdx_range hH _).2, (nearIdx_range hW _).1, (nearIdx_range hW _).2, Int.mul_nonneg (by omega) (by omega)⟩
  · show (2 ^ s - y % 2 ^ s) * (2 ^ s - x % 2 ^ s) + (2 ^ s - y % 2 ^ s) * (x % 2 ^ s) + (y % 2 ^ s) * (2 ^ s - x % 2 ^ s) +
      (y % 2 ^ s) * (x % 2 ^ s) = 2 ^ (2 * s)
    rw [two_mul, pow_add]; ring

/-- Row and column positions are those of the specification as long as they are not left of the first pixel's left neighbour. -/
theorem resizePos_eq {shift : Nat} (hs : 1 ≤ shift) {stride offset n i : Int} (h1 : InRange 32 (i * stride)) (h2 : InRange 32 (i * stride + offset))
    (hlo : -(2 ^ shift) ≤ i * stride + offset) (hn : 1 ≤ n) :
    resizePos shift stride offset n i = some (nearIdx n ((i * stride + offset) / 2 ^ shift), nearIdx n ((i * stride + offset) / 2 ^ shift + 1),
      (i * stride + offset) % 2 ^ shift) := by
  have hp := two_pow_pos shift
  have h2p : (2 : Int) ≤ 2 ^ shift := by
    calc (2 : Int) = 2 ^ 1 := by norm_num
      _ ≤ 2 ^ shift := pow_le_pow_right₀ (by decide) hs
  unfold resizePos
  rw [ckd_some h1, Option.bind_some, ckd_some h2, Option.bind_some]
  generalize i * stride + offset = y at *
  have hd : -1 ≤ y / 2 ^ shift := by
    rw [Int.le_ediv_iff_mul_le hp]; omega
  have hu : y / 2 ^ shift ≤ 1073741823 := by
    have : y / 2 ^ shift < 1073741824 := by
      rw [Int.ediv_lt_iff_lt_mul hp]
      simp only [InRange, lo, hi] at h2
      omega
    omega
  rw [ckd_some (by simp only [InRange, lo, hi]; omega), Option.bind_some, Int.emod_def, Int.mul_comm (2 ^ shift)]
  unfold nearIdx
  congr 2
  · omega
  · congr 1; omega

theorem mul3_eq {v f g : Int} {s : Nat} (hs : s ≤ 11) (hv : InRange 8 v) (hf : 0 ≤ f ∧ f ≤ 2 ^ s) (hg : 0 ≤ g ∧ g ≤ 2 ^ s) :
    mul3 v f g = some (v * (f * g)) ∧ -128 * (f * g) ≤ v * (f * g) ∧ v * (f * g) ≤ 127 * (f * g) ∧ 0 ≤ f * g := by
  have h11 : (2 : Int) ^ s ≤ 2048 := by
    calc (2 : Int) ^ s ≤ 2 ^ 11 := pow_le_pow_right₀ (by decide) hs
      _ = 2048 := by norm_num
  have hv' : -128 ≤ v ∧ v ≤ 127 := by simpa [InRange, lo, hi] using hv
  have hfg : 0 ≤ f * g := Int.mul_nonneg hf.1 hg.1
  have hfg2 : f * g ≤ 2048 * 2048 := Int.mul_le_mul (by omega) (by omega) hg.1 (by decide)
  have b1 : -128 * f ≤ v * f := Int.mul_le_mul_of_nonneg_right hv'.1 hf.1
  have b2 : v * f ≤ 127 * f := Int.mul_le_mul_of_nonneg_right hv'.2 hf.1
  have c1 : -128 * (f * g) ≤ v * (f * g) := Int.mul_le_mul_of_nonneg_right hv'.1 hfg
  have c2 : v * (f * g) ≤ 127 * (f * g) := Int.mul_le_mul_of_nonneg_right hv'.2 hfg
  refine ⟨?_, c1, c2, hfg⟩
  unfold mul3
  rw [ckd_some (by simp only [InRange, lo, hi]; omega), Option.bind_some, Int.mul_assoc,
    ckd_some (by simp only [InRange, lo, hi]; omega)]

theorem resizeValue_eq {shift : Nat} (hs : shift ≤ 11) (src : Buf) (t : Tensor) (b c r0 r1 dr c0 c1 dc : Int)
    (hb : ∀ r q, r = r0 ∨ r = r1 → q = c0 ∨ q = c1 → (0 ≤ t.iPos b r q c ∧ t.iPos b r q c < src.size) ∧ InRange 8 (src.get (t.iPos b r q c)))
    (hdr : 0 ≤ dr ∧ dr < 2 ^ shift) (hdc : 0 ≤ dc ∧ dc < 2 ^ shift) :
    resizeValue shift src t b c r0 r1 dr c0 c1 dc = some (src.get (t.iPos b r0 c0 c) * ((2 ^ shift - dr) * (2 ^ shift - dc)) +
      src.get (t.iPos b r0 c1 c) * ((2 ^ shift - dr) * dc) + src.get (t.iPos b r1 c0 c) * (dr * (2 ^ shift - dc)) +
      src.get (t.iPos b r1 c1 c) * (dr * dc)) := by
  obtain ⟨b00, i00⟩ := hb r0 c0 (Or.inl rfl) (Or.inl rfl)
  obtain ⟨b01, i01⟩ := hb r0 c1 (Or.inl rfl) (Or.inr rfl)
  obtain ⟨b10, i10⟩ := hb r1 c0 (Or.inr rfl) (Or.inl rfl)
  obtain ⟨b11, i11⟩ := hb r1 c1 (Or.inr rfl) (Or.inr rfl)
  unfold resizeValue
  rw [Buf.rd_some b00, Option.bind_some, Buf.rd_some b01, Option.bind_some, Buf.rd_some b10, Option.bind_some, Buf.rd_some b11,
    Option.bind_some]
  have m00 := mul3_eq (f := 2 ^ shift - dr) (g := 2 ^ shift - dc) hs i00 (by omega) (by omega)
  have m01 := mul3_eq (f := 2 ^ shift - dr) (g := dc) hs i01 (by omega) (by omega)
  have m10 := mul3_eq (f := dr) (g := 2 ^ shift - dc) hs i10 (by omega) (by omega)
  have m11 := mul3_eq (f := dr) (g := dc) hs i11 (by omega) (by omega)
  have htot : (2 ^ shift - dr) * (2 ^ shift - dc) + (2 ^ shift - dr) * dc + dr * (2 ^ shift - dc) + dr * dc = 2 ^ shift * 2 ^ shift := by ring
  have h11 : (2 : Int) ^ shift ≤ 2048 := by
    calc (2 : Int) ^ shift ≤ 2 ^ 11 := pow_le_pow_right₀ (by decide) hs
      _ = 2048 := by norm_num
  have hp := two_pow_pos shift
  have htot2 : (2 : Int) ^ shift * 2 ^ shift ≤ 2048 * 2048 := Int.mul_le_mul h11 h11 (by omega) (by decide)
  rw [m00.1, Option.bind_some, m01.1, Option.bind_some]
  obtain ⟨-, x00, y00, z00⟩ := m00
  obtain ⟨-, x01, y01, z01⟩ := m01
  obtain ⟨e10, x10, y10, z10⟩ := m10
  obtain ⟨e11, x11, y11, z11⟩ := m11
  rw [ckd_some (by simp only [InRange, lo, hi]; omega), Option.bind_some, e10, Option.bind_some,
    ckd_some (by simp only [InRange, lo, hi]; omega), Option.bind_some, e11, Option.bind_some,
    ckd_some (by simp only [InRange, lo, hi]; omega)]

theorem iPos_eq {t : Tensor} {d0 d1 d2 d3 : Dim} (h : t.dims = [d0, d1, d2, d3]) (a b c e : Int) : t.iPos a b c e = t.addr [a, b, c, e] := by
  unfold Tensor.iPos Tensor.addr Tensor.gStride Tensor.strides
  rw [h]
  simp only [List.map_cons, List.map_nil, offset, List.getElem?_cons_zero, List.getElem?_cons_succ, Option.map_some, Option.getD_some]
  omega

/-- Parameters with which no output position leaves the 32-bit range or lies more than one pixel before the first one. -/
structure ResizeCfg.Ok (cfg : ResizeCfg) (oh ow : Int) : Prop where
  shift : 1 ≤ cfg.shift ∧ cfg.shift ≤ 11
  strides : InRange 16 cfg.strideH ∧ 0 < cfg.strideH ∧ InRange 16 cfg.strideW ∧ 0 < cfg.strideW
  offsets : InRange 16 cfg.offsetH ∧ InRange 16 cfg.offsetW
  first : -(2 ^ cfg.shift) ≤ cfg.offsetH ∧ -(2 ^ cfg.shift) ≤ cfg.offsetW
  last : (oh - 1) * cfg.strideH + cfg.offsetH ≤ hi 32 ∧ (oh - 1) * cfg.strideH ≤ hi 32 ∧
    (ow - 1) * cfg.strideW + cfg.offsetW ≤ hi 32 ∧ (ow - 1) * cfg.strideW ≤ hi 32

theorem pos_range {n stride offset i : Int} (hi0 : 0 ≤ i) (hin : i < n) (hs : 0 < stride) (ho : InRange 16 offset)
    (h1 : (n - 1) * stride + offset ≤ hi 32) (h2 : (n - 1) * stride ≤ hi 32) :
    InRange 32 (i * stride) ∧ InRange 32 (i * stride + offset) ∧ offset ≤ i * stride + offset := by
  have a : 0 ≤ i * stride := Int.mul_nonneg hi0 (by omega)
  have b : i * stride ≤ (n - 1) * stride := Int.mul_le_mul_of_nonneg_right (by omega) (by omega)
  simp only [InRange, lo, hi] at *
  omega

/-- C43: with offsets of at least minus one pixel, every read is inside the input and every element of the output is the bilinear
interpolation of the image at its position.  Missing: offsets below minus one pixel, for which the code reads outside the image
(see the violation). -/
theorem c43_resize_partial (cfg : ResizeCfg) (src dst : Buf) (tin tout : Tensor) (B H W C oh ow : Int) (vi : tin.Valid src) (vo : tout.Valid dst)
    (si : tin.shape = [B, H, W, C]) (so : tout.shape = [B, oh, ow, C]) (hc : cfg.Ok oh ow)
    (hx : ∀ is, InShape tin.shape is → InRange 8 (src.get (tin.addr is))) :
    ∃ dst' val, resizeBilinear cfg src tin tout dst = some dst' ∧ tout.Writes val dst dst' ∧
      ∀ b h w c, InShape tout.shape [b, h, w, c] →
        val [b, h, w, c] = bilinear cfg.shift H W (fun r q => src.get (tin.addr [b, r, q, c])) (h * cfg.strideH + cfg.offsetH)
          (w * cfg.strideW + cfg.offsetW) := by
  have hdi : ∃ d0 d1 d2 d3, tin.dims = [d0, d1, d2, d3] := by
    have := congrArg List.length si
    simp [Tensor.shape] at this
    rcases list_le4_cases tin.dims (by omega) with h | ⟨a, h⟩ | ⟨a, b, h⟩ | ⟨a, b, c, h⟩ | ⟨a, b, c, d, h⟩
    · rw [h] at this; simp at this
    · rw [h] at this; simp at this
    · rw [h] at this; simp at this
    · rw [h] at this; simp at this
    · exact ⟨a, b, c, d, h⟩
  obtain ⟨d0, d1, d2, d3, hdi⟩ := hdi
  have hlo : tout.dims.length = 4 := by
    have := congrArg List.length so
    simpa [Tensor.shape] using this
  have hpi := vi.shape_pos
  have gi : ∀ k, tin.gShape k = ([B, H, W, C][k]?).getD 1 := fun k => by rw [gShape_eq, si]
  have go : ∀ k, tout.gShape k = ([B, oh, ow, C][k]?).getD 1 := fun k => by rw [gShape_eq, so]
  have g1 : tin.gShape 1 = H := gi 1
  have g2 : tin.gShape 2 = W := gi 2
  have o1 : tout.gShape 1 = oh := go 1
  have o2 : tout.gShape 2 = ow := go 2
  have hH : 1 ≤ H ∧ 1 ≤ W := by
    have e1 : [d0.shape, d1.shape, d2.shape, d3.shape] = [B, H, W, C] := by rw [← si, Tensor.shape, hdi]; rfl
    simp only [List.cons.injEq] at e1
    have a1 := hpi d1 (by rw [hdi]; simp)
    have a2 := hpi d2 (by rw [hdi]; simp)
    omega
  let val : List Int → Int := fun is => bilinear cfg.shift H W (fun r q => src.get (tin.addr [is.getD 0 0, r, q, is.getD 3 0]))
    (is.getD 1 0 * cfg.strideH + cfg.offsetH) (is.getD 2 0 * cfg.strideW + cfg.offsetW)
  have hp := two_pow_pos cfg.shift
  have hrow : ∀ h : Nat, h < oh.toNat → resizePos cfg.shift cfg.strideH cfg.offsetH (tin.gShape 1) h = some
      (nearIdx H ((h * cfg.strideH + cfg.offsetH) / 2 ^ cfg.shift), nearIdx H ((h * cfg.strideH + cfg.offsetH) / 2 ^ cfg.shift + 1),
        (h * cfg.strideH + cfg.offsetH) % 2 ^ cfg.shift) := by
    intro h hh
    obtain ⟨r1, r2, r3⟩ := pos_range (i := (h : Int)) (n := oh) (by omega) (by omega) hc.strides.2.1 hc.offsets.1 hc.last.1 hc.last.2.1
    rw [g1]
    exact resizePos_eq hc.shift.1 r1 r2 (by have := hc.first.1; omega) hH.1
  have hcol : ∀ h : Nat, h < ow.toNat → resizePos cfg.shift cfg.strideW cfg.offsetW (tin.gShape 2) h = some
      (nearIdx W ((h * cfg.strideW + cfg.offsetW) / 2 ^ cfg.shift), nearIdx W ((h * cfg.strideW + cfg.offsetW) / 2 ^ cfg.shift + 1),
        (h * cfg.strideW + cfg.offsetW) % 2 ^ cfg.shift) := by
    intro h hh
    obtain ⟨r1, r2, r3⟩ := pos_range (i := (h : Int)) (n := ow) (by omega) (by omega) hc.strides.2.2.2 hc.offsets.2 hc.last.2.2.1 hc.last.2.2.2
    rw [g2]
    exact resizePos_eq hc.shift.1 r1 r2 (by have := hc.first.2; omega) hH.2
  obtain ⟨dst', h1, h2⟩ := forPos_inplace tout tout dst vo rfl val
    (fun b h w c d =>
      (resizeValue cfg.shift src tin b c (nearIdx H ((h * cfg.strideH + cfg.offsetH) / 2 ^ cfg.shift))
        (nearIdx H ((h * cfg.strideH + cfg.offsetH) / 2 ^ cfg.shift + 1)) ((h * cfg.strideH + cfg.offsetH) % 2 ^ cfg.shift)
        (nearIdx W ((w * cfg.strideW + cfg.offsetW) / 2 ^ cfg.shift)) (nearIdx W ((w * cfg.strideW + cfg.offsetW) / 2 ^ cfg.shift + 1))
        ((w * cfg.strideW + cfg.offsetW) % 2 ^ cfg.shift)).bind fun v => d.wr (tout.gPos b h w c) v)
    (fun q hq d' hd hfr => by
      have hin := (pts_inShape (by omega) hq).1
      have hq' := hq
      rw [Tensor.pts, mem_pts4] at hq'
      have e0 : tout.gShape 0 = B := go 0
      have e3 : tout.gShape 3 = C := go 3
      rw [e0, o1, o2, e3] at hq'
      have hI : ∀ r c, InShape tin.shape [(q.1 : Int), nearIdx H r, nearIdx W c, q.2.2.2] := by
        intro r c
        rw [si]
        exact ⟨⟨by omega, by omega⟩, nearIdx_range hH.1 r, nearIdx_range hH.2 c, ⟨by omega, by omega⟩, trivial⟩
      have hrd : ∀ r c, (0 ≤ tin.iPos q.1 (nearIdx H r) (nearIdx W c) q.2.2.2 ∧ tin.iPos q.1 (nearIdx H r) (nearIdx W c) q.2.2.2 < src.size) ∧
          InRange 8 (src.get (tin.iPos q.1 (nearIdx H r) (nearIdx W c) q.2.2.2)) := by
        intro r c
        rw [iPos_eq hdi]
        exact ⟨vi.inBounds (hI r c), hx _ (hI r c)⟩
      rw [resizeValue_eq hc.shift.2 src tin _ _ _ _ _ _ _ _ (by
          rintro r c (rfl | rfl) (rfl | rfl) <;> exact hrd _ _)
        ⟨Int.emod_nonneg _ hp.ne', Int.emod_lt_of_pos _ hp⟩ ⟨Int.emod_nonneg _ hp.ne', Int.emod_lt_of_pos _ hp⟩, Option.bind_some,
        gPos_eq (by omega) hq]
      simp only [iPos_eq hdi]
      rw [hlo]
      rfl)
  refine ⟨dst', val, ?_, h2, fun b h w c hin => rfl⟩
  rw [← h1]
  unfold resizeBilinear forPos
  apply forRange_congr; intro b hb
  funext d
  apply forRange_congr; intro h hh
  funext d
  rw [hrow h (by rwa [o1] at hh), Option.bind_some]
  apply forRange_congr; intro w hw
  funext d
  rw [hcol w (by rwa [o2] at hw), Option.bind_some]

/-- C43, convexity: each element of the output is a convex combination, scaled by `2^(2*shift)`, of four elements of the image of its
batch and channel. -/
theorem c43_convex_partial (cfg : ResizeCfg) (src dst : Buf) (tin tout : Tensor) (B H W C oh ow : Int) (vi : tin.Valid src) (vo : tout.Valid dst)
    (si : tin.shape = [B, H, W, C]) (so : tout.shape = [B, oh, ow, C]) (hc : cfg.Ok oh ow)
    (hx : ∀ is, InShape tin.shape is → InRange 8 (src.get (tin.addr is))) :
    ∃ dst', resizeBilinear cfg src tin tout dst = some dst' ∧
      ∀ b h w c, InShape tout.shape [b, h, w, c] →
        Convex4 (2 ^ (2 * cfg.shift)) H W (fun r q => src.get (tin.addr [b, r, q, c])) (dst'.get (tout.addr [b, h, w, c])) := by
  obtain ⟨dst', val, h1, h2, h3⟩ := c43_resize_partial cfg src dst tin tout B H W C oh ow vi vo si so hc hx
  have hH : 1 ≤ H ∧ 1 ≤ W := by
    have := vi.shape_pos
    have e : ∀ n ∈ [B, H, W, C], 1 ≤ n := by
      intro n hn
      rw [← si] at hn
      simp only [Tensor.shape, List.mem_map] at hn
      obtain ⟨d, hd, rfl⟩ := hn
      exact this d hd
    exact ⟨e H (by simp), e W (by simp)⟩
  refine ⟨dst', h1, fun b h w c hin => ?_⟩
  rw [h2.elem _ hin, h3 b h w c hin]
  exact bilinear_convex _ hH.1 hH.2 _ _ _

/-- One 2 by 3 image, resized to 3 by 3. -/
def exRzIn : Tensor := { dims := [⟨1, 6⟩, ⟨2, 3⟩, ⟨3, 1⟩, ⟨1, 1⟩], cap := 6, es := 1 }
def exRzOut : Tensor := { dims := [⟨1, 12⟩, ⟨3, 4⟩, ⟨3, 1⟩, ⟨1, 1⟩], cap := 48, es := 4, base := 1 }
def exRzCfg : ResizeCfg := { strideH := 3, strideW := 5, offsetH := -2, offsetW := -1, shift := 2 }

example : exRzIn.Valid (Buf.ofList [10, -20, 30, 7, 127, -128]) ∧ exRzOut.Valid (Buf.ofList (List.replicate 14 77)) ∧ exRzCfg.Ok 3 3 ∧
    (resizeBilinear exRzCfg (Buf.ofList [10, -20, 30, 7, 127, -128]) exRzIn exRzOut (Buf.ofList (List.replicate 14 77))).map (·.toList) =
      some [77, 160, -320, 480, 77, 148, 268, -152, 77, 112, 2032, -2048, 77, 77] :=
  ⟨⟨by decide, by decide, by decide, by decide⟩, ⟨by decide, by decide, by decide, by decide⟩,
    ⟨by decide, by decide, by decide, by decide, by decide⟩, by decide +kernel⟩

/-- C43 is violated for offsets below minus one pixel, which the assertions of the caller allow: the second row is not limited to
the image, and the code reads before the input. -/
theorem c43_negative_offset_violated : ∃ (cfg : ResizeCfg) (src dst : Buf) (tin tout : Tensor), tin.Valid src ∧ tout.Valid dst ∧
    tin.shape = [1, 2, 3, 1] ∧ tout.shape = [1, 3, 3, 1] ∧ cfg.offsetH = -9 ∧ cfg.offsetH > -(16 * 2 ^ cfg.shift) ∧
    resizeBilinear cfg src tin tout dst = none :=
  ⟨{ exRzCfg with offsetH := -9 }, Buf.ofList [10, -20, 30, 7, 127, -128], Buf.ofList (List.replicate 14 77), exRzIn, exRzOut,
    ⟨by decide, by decide, by decide, by decide⟩, ⟨by decide, by decide, by decide, by decide⟩, rfl, rfl, rfl, by decide, by decide +kernel⟩

end Mli
