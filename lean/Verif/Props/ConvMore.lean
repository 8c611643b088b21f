import Verif.Props.ConvSa8

/-!
# Acceptance, padding and limits of the convolution kernels (C36, C38)
-/

namespace Mli

open Spec

theorem holds_ofList {w : Nat} {l : List Int} (h : ∀ v ∈ l, InRange w v) (t : Tensor) : t.Holds (Buf.ofList l) w := by
  intro is _
  simp only [Buf.ofList]
  rw [List.getD_eq_getElem?_getD]
  rcases hg : l[(t.addr is).toNat]? with _ | s
  · exact ⟨by have := lo_neg w; simpa using this.le, by simpa using hi_nonneg w⟩
  · exact h s (List.mem_of_getElem? hg)

/-! ## What is accepted -/

/-- Geometry of a convolution: an output of `oh` by `ow` fits into the padded input, and no
padding is as large as the (dilated) kernel. -/
structure ConvCfg.Fits (c : ConvCfg) (ih iw kh kw oh ow : Int) : Prop where
  dh : 0 < c.dh
  dw : 0 < c.dw
  sh : 0 < c.sh
  sw : 0 < c.sw
  pt : c.pt < (kh - 1) * c.dh + 1
  pb : c.pb < (kh - 1) * c.dh + 1
  pl : c.pl < (kw - 1) * c.dw + 1
  pr : c.pr < (kw - 1) * c.dw + 1
  rows : (oh - 1) * c.sh + ((kh - 1) * c.dh + 1) ≤ ih + c.pt + c.pb
  cols : (ow - 1) * c.sw + ((kw - 1) * c.dw + 1) ≤ iw + c.pl + c.pr

instance (c : ConvCfg) (ih iw kh kw oh ow : Int) : Decidable (c.Fits ih iw kh kw oh ow) :=
  decidable_of_iff ((0 < c.dh ∧ 0 < c.dw ∧ 0 < c.sh ∧ 0 < c.sw) ∧
    (c.pt < (kh - 1) * c.dh + 1 ∧ c.pb < (kh - 1) * c.dh + 1 ∧ c.pl < (kw - 1) * c.dw + 1 ∧ c.pr < (kw - 1) * c.dw + 1) ∧
    (oh - 1) * c.sh + ((kh - 1) * c.dh + 1) ≤ ih + c.pt + c.pb ∧ (ow - 1) * c.sw + ((kw - 1) * c.dw + 1) ≤ iw + c.pl + c.pr)
    ⟨fun ⟨⟨a, b, d, e⟩, ⟨f, g, h, i⟩, j, k⟩ => ⟨a, b, d, e, f, g, h, i, j, k⟩,
     fun ⟨a, b, d, e, f, g, h, i, j, k⟩ => ⟨⟨a, b, d, e⟩, ⟨f, g, h, i⟩, j, k⟩⟩

theorem mul_byte {a d : Int} (a0 : 0 ≤ a) (a1 : a ≤ 2 ^ 22) (d0 : 0 ≤ d) (d1 : d < 256) : 0 ≤ a * d ∧ a * d ≤ 2 ^ 22 * 255 :=
  ⟨Int.mul_nonneg a0 d0, mul_le_mul a1 (by omega) d0 (by decide)⟩

/-- The convolution check for sizes up to `2^22`: it accepts exactly matching channel counts, unit innermost
strides, the kernel size the function is made for, a fitting geometry and an output apart from the input. -/
theorem c36_check {dw apart : Bool} {ks : Int} {tin tw tb tout : Tensor} {c : ConvCfg} {src wts bias dst : Buf}
    (vi : tin.Valid src) (vw : tw.Valid wts) (vb : tb.Valid bias) (vo : tout.Valid dst) (hc : c.Typed)
    {ih iw ic kh kw kc kn bn oh ow oc : Dim} (e1 : tin.dims = [ih, iw, ic]) (e2 : tw.dims = [kh, kw, kc, kn]) (e3 : tb.dims = [bn])
    (e4 : tout.dims = [oh, ow, oc])
    (b1 : ih.shape ≤ 2 ^ 22 ∧ iw.shape ≤ 2 ^ 22) (b2 : kh.shape ≤ 2 ^ 22 ∧ kw.shape ≤ 2 ^ 22) (b3 : oh.shape ≤ 2 ^ 22 ∧ ow.shape ≤ 2 ^ 22) :
    chkConv dw ks apart tin tw tb c tout = some .ok ↔
      ((dw = true → kc.shape = 1 ∧ kn.shape = ic.shape) ∧ (dw = false → ic.shape = kc.shape) ∧ oc.shape = kn.shape ∧ bn.shape = kn.shape) ∧
      (ic.stride = 1 ∧ kn.stride = 1 ∧ bn.stride = 1 ∧ oc.stride = 1) ∧ (ks ≠ 0 → kh.shape = ks ∧ kw.shape = ks) ∧
      c.Fits ih.shape iw.shape kh.shape kw.shape oh.shape ow.shape ∧ apart = true := by
  obtain ⟨⟨s1, s1'⟩, ⟨s2, s2'⟩, ⟨t1, t1'⟩, ⟨t2, t2'⟩, ⟨t3, t3'⟩, ⟨t4, t4'⟩, ⟨d1, d1'⟩, ⟨d2, d2'⟩⟩ := hc
  have i1 := vi.shape_pos ih (by simp [e1])
  have i2 := vi.shape_pos iw (by simp [e1])
  have k1 := vw.shape_pos kh (by simp [e2])
  have k2 := vw.shape_pos kw (by simp [e2])
  have o1 := vo.shape_pos oh (by simp [e4])
  have o2 := vo.shape_pos ow (by simp [e4])
  have m1 := mul_byte (a := kh.shape - 1) (by omega) (by omega) d1 d1'
  have m2 := mul_byte (a := kw.shape - 1) (by omega) (by omega) d2 d2'
  have m3 := mul_byte (a := oh.shape) (by omega) (by omega) s1 s1'
  have m4 := mul_byte (a := ow.shape) (by omega) (by omega) s2 s2'
  have x1 : wrap 32 ((kw.shape - 1) * c.dw + 1) = (kw.shape - 1) * c.dw + 1 := wrap_of_inRange (by omega) (by constructor <;> simp only [lo, hi] <;> omega)
  have x2 : wrap 32 ((kh.shape - 1) * c.dh + 1) = (kh.shape - 1) * c.dh + 1 := wrap_of_inRange (by omega) (by constructor <;> simp only [lo, hi] <;> omega)
  have x3 : wrap 32 (iw.shape + c.pl + c.pr) = iw.shape + c.pl + c.pr := wrap_of_inRange (by omega) (by constructor <;> simp only [lo, hi] <;> omega)
  have x4 : wrap 32 (ih.shape + c.pt + c.pb) = ih.shape + c.pt + c.pb := wrap_of_inRange (by omega) (by constructor <;> simp only [lo, hi] <;> omega)
  have x5 : wrap 32 (ow.shape * c.sw + ((kw.shape - 1) * c.dw + 1) - c.sw) = (ow.shape - 1) * c.sw + ((kw.shape - 1) * c.dw + 1) := by
    rw [wrap_of_inRange (by omega) (by constructor <;> simp only [lo, hi] <;> omega)]; ring
  have x6 : wrap 32 (oh.shape * c.sh + ((kh.shape - 1) * c.dh + 1) - c.sh) = (oh.shape - 1) * c.sh + ((kh.shape - 1) * c.dh + 1) := by
    rw [wrap_of_inRange (by omega) (by constructor <;> simp only [lo, hi] <;> omega)]; ring
  constructor
  · intro h
    obtain ⟨ih', iw', ic', kh', kw', kc', kn', bn', oh', ow', oc', e1', e2', e3', e4', h1, h2, h3, u1, u2, u3, u4, hks, g1, g2, g3, g4,
      ⟨p1, p2, p3, p4⟩, r1, r2, hap⟩ := chkConv_ok h
    rw [e1] at e1'; rw [e2] at e2'; rw [e3] at e3'; rw [e4] at e4'
    simp only [List.cons.injEq, and_true] at e1' e2' e3' e4'
    obtain ⟨rfl, rfl, rfl⟩ := e1'
    obtain ⟨rfl, rfl, rfl, rfl⟩ := e2'
    obtain rfl := e3'
    obtain ⟨rfl, rfl, rfl⟩ := e4'
    rw [x1] at p1 p2
    rw [x2] at p3 p4
    rw [x2, x6, x4] at r1
    rw [x1, x5, x3] at r2
    exact ⟨⟨h1.1, h1.2, h2, h3⟩, ⟨u1, u2, u3, u4⟩, hks, ⟨g1, g2, g3, g4, p3, p4, p1, p2, r1, r2⟩, hap⟩
  · rintro ⟨⟨h1, h2, h3, h4⟩, ⟨u1, u2, u3, u4⟩, hks, F, hap⟩
    have hks' : ¬ (ks ≠ 0 ∧ ¬ (tw.shape.getD 0 0 = ks ∧ tw.shape.getD 1 0 = ks)) := by
      rintro ⟨a, b⟩
      apply b
      simpa [Tensor.shape, e2] using hks a
    have hct : chkTensors [tin, tw, tb, tout] = some .ok := by
      simp [chkTensors, vi.accepted, vw.accepted, vb.accepted, vo.accepted]
    unfold chkConv
    rw [if_neg hks', hct, Option.bind_some, if_neg (by simp)]
    unfold chkConvGeo
    rw [e1, e2, e3, e4]
    simp only [x1, x2, x3, x4, x5, x6]
    rw [if_neg (not_not.2 ⟨h1, h2, h3, h4⟩), if_neg (by
      simp [innerOne, Tensor.strides, e1, e2, e3, e4, u1, u2, u3, u4]), if_neg (not_not.2 ⟨F.dh, F.dw, F.pl, F.pr, F.pt, F.pb, F.sh, F.sw,
      F.rows, F.cols⟩), if_neg (by simp [hap])]

/-- If the geometry fits and the row dilation does not exceed the input height, each window has a row in the input. -/
theorem c36_rows_meet {c : ConvCfg} {ih iw kh kw oh ow : Int} (F : c.Fits ih iw kh kw oh ow) (hd : c.dh ≤ ih) (ht : 0 ≤ c.pt) (hk : 1 ≤ kh) :
    RowsMeet ih kh oh c := by
  intro y y0 y1
  have hd0 := F.dh
  have hp := F.pt
  have hpb := F.pb
  have hr := F.rows
  have hs := F.sh
  have hy : y * c.sh ≤ (oh - 1) * c.sh := Int.mul_le_mul_of_nonneg_right (by omega) (by omega)
  have hy0 : 0 ≤ y * c.sh := Int.mul_nonneg y0 (by omega)
  unfold tapCoord
  -- the first row at or after row 0
  by_cases h0 : 0 ≤ y * c.sh - c.pt
  · exact ⟨0, by omega, by omega, by omega, by omega⟩
  · have e := Int.ediv_mul_le (c.pt - y * c.sh + c.dh - 1) (show c.dh ≠ 0 by omega)
    have e2 := Int.lt_ediv_add_one_mul_self (c.pt - y * c.sh + c.dh - 1) hd0
    generalize (c.pt - y * c.sh + c.dh - 1) / c.dh = i at e e2
    have e3 : (i + 1) * c.dh = i * c.dh + c.dh := by ring
    have i0 : 0 ≤ i := by
      by_contra hc
      have : (i + 1) * c.dh ≤ 0 := Int.mul_nonpos_of_nonpos_of_nonneg (by omega) (by omega)
      omega
    have i1 : i < kh := by
      by_contra hc
      have : kh * c.dh ≤ i * c.dh := Int.mul_le_mul_of_nonneg_right (by omega) (by omega)
      have e4 : (kh - 1) * c.dh = kh * c.dh - c.dh := by ring
      omega
    exact ⟨i, i0, i1, by omega, by omega⟩

/-- A fixed-point convolution kernel that reports an error leaves the output as it was; success means that
the arguments were accepted. -/
theorem c36_status_fx (m : Rnd) (aw : Nat) (ks : Int) (apart : Bool) (f : FxQ) (src wts bias : Buf) (tin tw tb : Tensor) (c : ConvCfg)
    (tout : Tensor) (dst dst' : Buf) (st : Status)
    (h : krnConvFx m aw ks apart f src wts bias tin tw tb c tout dst = some (st, dst') ∨
      krnDwFx m aw ks apart f src wts bias tin tw tb c tout dst = some (st, dst')) :
    (st ≠ .ok → dst' = dst) ∧ (st = .ok → ∃ dw, chkConvFx dw ks apart f tin tw tb c tout = some .ok) := by
  rcases h with h | h
  · unfold krnConvFx at h
    simp only [Option.bind_eq_bind, Option.pure_def] at h
    rw [Option.bind_eq_some_iff] at h
    obtain ⟨s1, hs1, h⟩ := h
    split at h
    · rename_i hne
      simp only [Option.some.injEq, Prod.mk.injEq] at h
      obtain ⟨rfl, rfl⟩ := h
      exact ⟨fun _ => rfl, fun e => absurd e hne⟩
    · rename_i hne
      simp only [Option.bind_eq_some_iff, Option.some.injEq, Prod.mk.injEq] at h
      obtain ⟨_, -, _, -, _, -, _, -, rfl, -⟩ := h
      exact ⟨fun e => absurd rfl e, fun _ => ⟨false, by rw [hs1, not_not.1 hne]⟩⟩
  · unfold krnDwFx at h
    simp only [Option.bind_eq_bind, Option.pure_def] at h
    rw [Option.bind_eq_some_iff] at h
    obtain ⟨s1, hs1, h⟩ := h
    split at h
    · rename_i hne
      simp only [Option.some.injEq, Prod.mk.injEq] at h
      obtain ⟨rfl, rfl⟩ := h
      exact ⟨fun _ => rfl, fun e => absurd e hne⟩
    · rename_i hne
      simp only [Option.bind_eq_some_iff, Option.some.injEq, Prod.mk.injEq] at h
      obtain ⟨_, -, _, -, _, -, _, -, rfl, -⟩ := h
      exact ⟨fun e => absurd rfl e, fun _ => ⟨true, by rw [hs1, not_not.1 hne]⟩⟩

/-- The same for the 8-bit asymmetric kernels. -/
theorem c36_status_sa8 (m : Rnd) (full : Bool) (ks : Int) (apart : Bool) (q : Sa8Q) (src wts bias : Buf) (tin tw tb : Tensor) (c : ConvCfg)
    (tout : Tensor) (dst dst' : Buf) (st : Status)
    (h : krnConvSa8 m full ks apart q src wts bias tin tw tb c tout dst = some (st, dst') ∨
      krnDwSa8 m full ks apart q src wts bias tin tw tb c tout dst = some (st, dst')) :
    (st ≠ .ok → dst' = dst) ∧
    (st = .ok → ∃ dw, chkConv dw ks apart tin tw tb c tout = some .ok ∧ chkSa8 m q tin tw tb tout = some .ok) := by
  rcases h with h | h
  · unfold krnConvSa8 at h
    simp only [Option.bind_eq_bind, Option.pure_def] at h
    rw [Option.bind_eq_some_iff] at h
    obtain ⟨s1, hs1, h⟩ := h
    split at h
    · rename_i hne
      simp only [Option.some.injEq, Prod.mk.injEq] at h
      obtain ⟨rfl, rfl⟩ := h
      exact ⟨fun _ => rfl, fun e => absurd e hne⟩
    · rename_i hne
      rw [Option.bind_eq_some_iff] at h
      obtain ⟨s2, hs2, h⟩ := h
      split at h
      · rename_i hne2
        simp only [Option.some.injEq, Prod.mk.injEq] at h
        obtain ⟨rfl, rfl⟩ := h
        exact ⟨fun _ => rfl, fun e => absurd e hne2⟩
      · rename_i hne2
        simp only [Option.bind_eq_some_iff, Option.some.injEq, Prod.mk.injEq] at h
        obtain ⟨_, -, _, -, _, -, _, -, _, -, rfl, -⟩ := h
        exact ⟨fun e => absurd rfl e, fun _ => ⟨false, by rw [hs1, not_not.1 hne], by rw [hs2, not_not.1 hne2]⟩⟩
  · unfold krnDwSa8 at h
    simp only [Option.bind_eq_bind, Option.pure_def] at h
    rw [Option.bind_eq_some_iff] at h
    obtain ⟨s1, hs1, h⟩ := h
    split at h
    · rename_i hne
      simp only [Option.some.injEq, Prod.mk.injEq] at h
      obtain ⟨rfl, rfl⟩ := h
      exact ⟨fun _ => rfl, fun e => absurd e hne⟩
    · rename_i hne
      rw [Option.bind_eq_some_iff] at h
      obtain ⟨s2, hs2, h⟩ := h
      split at h
      · rename_i hne2
        simp only [Option.some.injEq, Prod.mk.injEq] at h
        obtain ⟨rfl, rfl⟩ := h
        exact ⟨fun _ => rfl, fun e => absurd e hne2⟩
      · rename_i hne2
        simp only [Option.bind_eq_some_iff, Option.some.injEq, Prod.mk.injEq] at h
        obtain ⟨_, -, _, -, _, -, _, -, _, -, rfl, -⟩ := h
        exact ⟨fun e => absurd rfl e, fun _ => ⟨true, by rw [hs1, not_not.1 hne], by rw [hs2, not_not.1 hne2]⟩⟩

/-! ## A concrete call -/

/-- 3 by 4 input with 2 channels, 2 by 3 kernel, 2 output channels, padding and stride 2. -/
def exIn : Tensor := { dims := [⟨3, 8⟩, ⟨4, 2⟩, ⟨2, 1⟩], cap := 48, es := 2 }
def exWt : Tensor := { dims := [⟨2, 12⟩, ⟨3, 4⟩, ⟨2, 2⟩, ⟨2, 1⟩], cap := 48, es := 2 }
def exBias : Tensor := { dims := [⟨2, 1⟩], cap := 4, es := 2 }
def exOut : Tensor := { dims := [⟨2, 4⟩, ⟨2, 2⟩, ⟨2, 1⟩], cap := 16, es := 2 }
def exCfg : ConvCfg := { sh := 2, sw := 2, pt := 1, pb := 0, pl := 1, pr := 1, dh := 1, dw := 1 }
def exSrc : List Int := (List.range 24).map fun (n : Nat) => 7 * (n : Int) - 80
def exWts : List Int := (List.range 24).map fun (n : Nat) => 11 - 3 * (n : Int)

theorem exArgs : ConvArgs exIn exWt exBias exOut exCfg (Buf.ofList exSrc) (Buf.ofList exWts) (Buf.ofList [5, -6]) (Buf.ofList (List.replicate 8 99)) 16 16 16 :=
  ⟨⟨by decide, by decide, by decide, by decide⟩, ⟨by decide, by decide, by decide, by decide⟩, ⟨by decide, by decide, by decide, by decide⟩,
    ⟨by decide, by decide, by decide, by decide⟩, holds_ofList (by decide) _, holds_ofList (by decide) _, holds_ofList (by decide) _, by decide⟩

theorem exMeet : RowsMeet 3 2 2 exCfg := c36_rows_meet (iw := 4) (kw := 3) (ow := 2) (by decide) (by decide) (by decide) (by decide)

/-- Hypotheses of `c36_conv2d_fx16_partial`, and the result. -/
example :
    let f : FxQ := { fi := 3, fw := 4, fb := 5, fo := 2, relu := .none }
    chkConvFx false 0 true f exIn exWt exBias exCfg exOut = some .ok ∧ f.fi + f.fw - f.fb ≤ 16 ∧
    exIn.shape = [3, 4, 2] ∧ exWt.shape = [2, 3, 2, 2] ∧ exOut.shape = [2, 2, 2] ∧
    (krnConvFx .convergent 64 0 true f (Buf.ofList exSrc) (Buf.ofList exWts) (Buf.ofList [5, -6]) exIn exWt exBias exCfg exOut
      (Buf.ofList (List.replicate 8 99))).map (fun p => (p.1, p.2.toList)) =
      some (.ok, [394, 418, 341, 367, -240, -252, -527, -568]) := by
  decide +kernel

/-- Weights of a depthwise convolution. -/
def exDw : Tensor := { dims := [⟨2, 6⟩, ⟨3, 2⟩, ⟨1, 2⟩, ⟨2, 1⟩], cap := 48, es := 2 }

theorem exArgsDw : ConvArgs exIn exDw exBias exOut exCfg (Buf.ofList exSrc) (Buf.ofList exWts) (Buf.ofList [5, -6]) (Buf.ofList (List.replicate 8 99)) 16 16 16 :=
  ⟨⟨by decide, by decide, by decide, by decide⟩, ⟨by decide, by decide, by decide, by decide⟩, ⟨by decide, by decide, by decide, by decide⟩,
    ⟨by decide, by decide, by decide, by decide⟩, holds_ofList (by decide) _, holds_ofList (by decide) _, holds_ofList (by decide) _, by decide⟩

/-- Hypotheses of `c36_depthwise_fx16_partial`, and the result. -/
example :
    let f : FxQ := { fi := 3, fw := 4, fb := 5, fo := 2, relu := .none }
    chkConvFx true 0 true f exIn exDw exBias exCfg exOut = some .ok ∧ f.fi + f.fw - f.fb ≤ 16 ∧ exDw.shape = [2, 3, 1, 2] ∧
    (krnDwFx .convergent 64 0 true f (Buf.ofList exSrc) (Buf.ofList exWts) (Buf.ofList [5, -6]) exIn exDw exBias exCfg exOut
      (Buf.ofList (List.replicate 8 99))).map (fun p => (p.1, p.2.toList)) =
      some (.ok, [72, 76, 59, 62, -43, -57, -81, -110]) := by
  decide +kernel

/-- The tensors with elements of one byte. -/
def Tensor.bytes (t : Tensor) : Tensor := { t with es := 1, cap := t.cap / 2 }

theorem exArgs8 : ConvArgs exIn exWt.bytes exBias.bytes exOut exCfg (Buf.ofList exSrc) (Buf.ofList exWts) (Buf.ofList [5, -6]) (Buf.ofList (List.replicate 8 99)) 16 8 8 ∧
    ConvArgs exIn exDw.bytes exBias.bytes exOut exCfg (Buf.ofList exSrc) (Buf.ofList exWts) (Buf.ofList [5, -6]) (Buf.ofList (List.replicate 8 99)) 16 8 8 :=
  ⟨⟨⟨by decide, by decide, by decide, by decide⟩, ⟨by decide, by decide, by decide, by decide⟩, ⟨by decide, by decide, by decide, by decide⟩,
    ⟨by decide, by decide, by decide, by decide⟩, holds_ofList (by decide) _, holds_ofList (by decide) _, holds_ofList (by decide) _, by decide⟩,
   ⟨⟨by decide, by decide, by decide, by decide⟩, ⟨by decide, by decide, by decide, by decide⟩, ⟨by decide, by decide, by decide, by decide⟩,
    ⟨by decide, by decide, by decide, by decide⟩, holds_ofList (by decide) _, holds_ofList (by decide) _, holds_ofList (by decide) _, by decide⟩⟩

/-- Hypotheses of `c36_conv2d_fx16_fx8_partial` and `c36_depthwise_fx16_fx8_partial`, and the results. -/
example :
    let f : FxQ := { fi := 3, fw := 4, fb := 5, fo := 2, relu := .none }
    chkConvFx false 0 true f exIn exWt.bytes exBias.bytes exCfg exOut = some .ok ∧
    chkConvFx true 0 true f exIn exDw.bytes exBias.bytes exCfg exOut = some .ok ∧ (2 * (2 * 3) ≤ 511) ∧
    (krnConvFx .convergent 32 0 true f (Buf.ofList exSrc) (Buf.ofList exWts) (Buf.ofList [5, -6]) exIn exWt.bytes exBias.bytes exCfg exOut
      (Buf.ofList (List.replicate 8 99))).map (fun p => (p.1, p.2.toList)) =
      some (.ok, [394, 418, 341, 367, -240, -252, -527, -568]) ∧
    (krnDwFx .convergent 32 0 true f (Buf.ofList exSrc) (Buf.ofList exWts) (Buf.ofList [5, -6]) exIn exDw.bytes exBias.bytes exCfg exOut
      (Buf.ofList (List.replicate 8 99))).map (fun p => (p.1, p.2.toList)) =
      some (.ok, [72, 76, 59, 62, -43, -57, -81, -110]) := by
  decide +kernel

def exBias32 : Tensor := { dims := [⟨2, 1⟩], cap := 8, es := 4 }
def exQ : Sa8Q := {
  qi := { dim := -1, zp := [-3], scale := [20000], frac := [18] }
  qw := { dim := 3, zp := [0, 0], scale := [150, 97], frac := [12, 11] }
  qb := { dim := 0, zp := [0, 0], scale := [183, 118], frac := [16, 15] }
  qo := { dim := -1, zp := [7], scale := [3000], frac := [10] }
  relu := .gen }

theorem exArgsSa8 : ConvArgs exIn.bytes exWt.bytes exBias32 exOut.bytes exCfg (Buf.ofList exSrc) (Buf.ofList exWts) (Buf.ofList [500, -600]) (Buf.ofList (List.replicate 8 99)) 8 8 32 ∧
    ConvArgs exIn.bytes exDw.bytes exBias32 exOut.bytes exCfg (Buf.ofList exSrc) (Buf.ofList exWts) (Buf.ofList [500, -600]) (Buf.ofList (List.replicate 8 99)) 8 8 32 :=
  ⟨⟨⟨by decide, by decide, by decide, by decide⟩, ⟨by decide, by decide, by decide, by decide⟩, ⟨by decide, by decide, by decide, by decide⟩,
    ⟨by decide, by decide, by decide, by decide⟩, holds_ofList (by decide) _, holds_ofList (by decide) _, holds_ofList (by decide) _, by decide⟩,
   ⟨⟨by decide, by decide, by decide, by decide⟩, ⟨by decide, by decide, by decide, by decide⟩, ⟨by decide, by decide, by decide, by decide⟩,
    ⟨by decide, by decide, by decide, by decide⟩, holds_ofList (by decide) _, holds_ofList (by decide) _, holds_ofList (by decide) _, by decide⟩⟩

/-- Hypotheses of `c36_conv2d_sa8_partial` and `c36_depthwise_sa8_partial`, and the results. -/
example :
    chkConv false 0 true exIn.bytes exWt.bytes exBias32 exCfg exOut.bytes = some .ok ∧
    chkConv true 0 true exIn.bytes exDw.bytes exBias32 exCfg exOut.bytes = some .ok ∧
    chkSa8 .convergent exQ exIn.bytes exWt.bytes exBias32 exOut.bytes = some .ok ∧
    chkSa8 .convergent exQ exIn.bytes exDw.bytes exBias32 exOut.bytes = some .ok ∧ (exQ.qi.Typed ∧ exQ.qw.Typed ∧ exQ.qo.Typed) ∧
    (krnConvSa8 .convergent false 0 true exQ (Buf.ofList exSrc) (Buf.ofList exWts) (Buf.ofList [500, -600]) exIn.bytes exWt.bytes exBias32
      exCfg exOut.bytes (Buf.ofList (List.replicate 8 99))).map (fun p => (p.1, p.2.toList)) = some (.ok, [19, 22, 17, 20, 7, 7, 7, 7]) ∧
    (krnDwSa8 .convergent true 0 true exQ (Buf.ofList exSrc) (Buf.ofList exWts) (Buf.ofList [500, -600]) exIn.bytes exDw.bytes exBias32
      exCfg exOut.bytes (Buf.ofList (List.replicate 8 99))).map (fun p => (p.1, p.2.toList)) = some (.ok, [10, 9, 9, 9, 7, 7, 7, 7]) := by
  decide +kernel

/-! ## Limits of the kernels -/

/-- A 1 by 1 by 1 tensor of 16-bit elements. -/
def exOne : Tensor := { dims := [⟨1, 1⟩, ⟨1, 1⟩, ⟨1, 1⟩], cap := 2, es := 2 }

/-- C36 fails for a bias shifted left by more than 16 bits: with zero input the output should be the bias,
0.5 * 2^2 = 16384 in the output format, and is its negation. -/
theorem c36_bias_violated :
    let tw : Tensor := { dims := [⟨1, 1⟩, ⟨1, 1⟩, ⟨1, 1⟩, ⟨1, 1⟩], cap := 2, es := 2 }
    let tb : Tensor := { dims := [⟨1, 1⟩], cap := 2, es := 2 }
    let f : FxQ := { fi := 15, fw := 15, fb := 13, fo := 13, relu := .none }
    (krnConvFx .convergent 64 0 true f (Buf.ofList [0]) (Buf.ofList [0]) (Buf.ofList [16384]) exOne tw tb { sh := 1, sw := 1 } exOne
      (Buf.ofList [99])).map (fun p => (p.1, p.2.toList)) = some (.ok, [-16384]) ∧
    Scaled .convergent (0 + 16384 * 2 ^ (f.fi + f.fw - f.fb).toNat) (f.fi + f.fw - f.fo) 16384 := by
  refine ⟨by decide +kernel, ?_⟩
  show RoundHalfEven (0 + 16384 * 2 ^ 17) (2 ^ 17) 16384
  unfold RoundHalfEven
  norm_num

/-- C36 fails if all taps of a window fall into the padding: the compiler is told that this cannot happen. -/
theorem c36_empty_window_violated :
    let tw : Tensor := { dims := [⟨2, 1⟩, ⟨1, 1⟩, ⟨1, 1⟩, ⟨1, 1⟩], cap := 4, es := 2 }
    let tb : Tensor := { dims := [⟨1, 1⟩], cap := 2, es := 2 }
    let f : FxQ := { fi := 15, fw := 15, fb := 15, fo := 15, relu := .none }
    let c : ConvCfg := { sh := 1, sw := 1, pt := 1, pb := 1, dh := 2 }
    chkConvFx false 0 true f exOne tw tb c exOne = some .ok ∧
    krnConvFx .convergent 64 0 true f (Buf.ofList [1]) (Buf.ofList [2, 3]) (Buf.ofList [4]) exOne tw tb c exOne (Buf.ofList [99]) = none := by
  decide +kernel

set_option maxRecDepth 4000 in
/-- C36 fails for 512 taps with 8-bit weights: the 32-bit accumulator overflows. -/
theorem c36_fx8_overflow_violated :
    let tin : Tensor := { dims := [⟨1, 512⟩, ⟨1, 512⟩, ⟨512, 1⟩], cap := 1024, es := 2 }
    let tw : Tensor := { dims := [⟨1, 512⟩, ⟨1, 512⟩, ⟨512, 1⟩, ⟨1, 1⟩], cap := 512, es := 1 }
    let tb : Tensor := { dims := [⟨1, 1⟩], cap := 1, es := 1 }
    let f : FxQ := { fi := 15, fw := 7, fb := 7, fo := 15, relu := .none }
    chkConvFx false 0 true f tin tw tb { sh := 1, sw := 1 } exOne = some .ok ∧
    krnConvFx .convergent 32 0 true f { size := 512, get := fun _ => -32768 } { size := 512, get := fun _ => -128 } (Buf.ofList [0]) tin tw tb
      { sh := 1, sw := 1 } exOne (Buf.ofList [99]) = none := by
  decide +kernel

/-! ## C38: implicit and explicit padding -/

theorem convSum_explicit {kh kw n ih iw : Int} (z : Int) (X X' W : Int → Int → Int → Int) (sh sw pt pb pl pr dh dw y x : Int)
    (h0 : 0 ≤ pt ∧ 0 ≤ pb ∧ 0 ≤ pl ∧ 0 ≤ pr)
    (h : ∀ r q (c : Nat), (c : Int) < n → 0 ≤ r → r < ih + pt + pb → 0 ≤ q → q < iw + pl + pr → X' r q c = padded ih iw z X (r - pt) (q - pl) c) :
    convSum kh kw n (padded (ih + pt + pb) (iw + pl + pr) z X') W sh sw 0 0 dh dw y x =
      convSum kh kw n (padded ih iw z X) W sh sw pt pl dh dw y x := by
  unfold convSum
  apply Finset.sum_congr rfl; intro i _
  apply Finset.sum_congr rfl; intro j _
  apply Finset.sum_congr rfl; intro k hk
  congr 1
  unfold tapCoord
  have hk : (k : Int) < n := by have := Finset.mem_range.1 hk; omega
  by_cases hin : 0 ≤ y * sh - 0 + i * dh ∧ y * sh - 0 + i * dh < ih + pt + pb ∧ 0 ≤ x * sw - 0 + j * dw ∧ x * sw - 0 + j * dw < iw + pl + pr
  · have e := h _ _ k hk hin.1 hin.2.1 hin.2.2.1 hin.2.2.2
    rw [show padded (ih + pt + pb) (iw + pl + pr) z X' (y * sh - 0 + i * dh) (x * sw - 0 + j * dw) k =
      X' (y * sh - 0 + i * dh) (x * sw - 0 + j * dw) k from if_pos hin, e]
    congr 1 <;> ring
  · rw [show padded (ih + pt + pb) (iw + pl + pr) z X' (y * sh - 0 + i * dh) (x * sw - 0 + j * dw) k = z from if_neg hin]
    symm
    exact if_neg (by omega)

theorem padded_sub (ih iw z : Int) (X : Int → Int → Int → Int) (r q c : Int) :
    padded ih iw 0 (fun r q c => X r q c - z) r q c = padded ih iw z X r q c - z := by
  unfold padded
  split
  · rfl
  · omega

/-- `(tin', src')` holds the input `(tin, src)` extended on each side with the value `z`. -/
structure Extended (c : ConvCfg) (z : Int) (tin : Tensor) (src : Buf) (tin' : Tensor) (src' : Buf) (ih iw ic : Int) : Prop where
  shape : tin.shape = [ih, iw, ic]
  shape' : tin'.shape = [ih + c.pt + c.pb, iw + c.pl + c.pr, ic]
  elems : ∀ r q k, 0 ≤ r → r < ih + c.pt + c.pb → 0 ≤ q → q < iw + c.pl + c.pr → 0 ≤ k → k < ic →
    inElem src' tin' r q k = padded ih iw z (inElem src tin) (r - c.pt) (q - c.pl) k

/-- The configuration without padding. -/
def ConvCfg.unpadded (c : ConvCfg) : ConvCfg := { c with pt := 0, pb := 0, pl := 0, pr := 0 }

theorem RowsMeet.unpadded {ih kh oh : Int} {c : ConvCfg} (h : RowsMeet ih kh oh c) (h0 : 0 ≤ c.pt ∧ 0 ≤ c.pb) :
    RowsMeet (ih + c.pt + c.pb) kh oh c.unpadded := by
  intro y y0 y1
  obtain ⟨i, i0, i1, a, b⟩ := h y y0 y1
  refine ⟨i, i0, i1, ?_⟩
  unfold tapCoord at *
  simp only [ConvCfg.unpadded]
  constructor <;> omega

theorem Tensor.Writes.congr {t : Tensor} {v v' : List Int → Int} {a b : Buf} (h : t.Writes v a b) (e : ∀ is, InShape t.shape is → v is = v' is) :
    t.Writes v' a b := by
  refine ⟨h.size, fun is hi => ?_, h.frame⟩
  rw [← e is hi]; exact h.elem is hi

theorem inShape3 {a b c : Int} {is : List Int} (h : InShape [a, b, c] is) : ∃ y x k, is = [y, x, k] ∧ (0 ≤ k ∧ k < c) := by
  match is, h with
  | [y, x, k], h => exact ⟨y, x, k, rfl, h.2.2.1⟩

/-- C38, fixed-point convolution: padding and extending the input with zeros beforehand give the same output. -/
theorem c38_conv2d_fx_partial (m : Rnd) (aw : Nat) (ks : Int) (apart apart' : Bool) (f : FxQ) (src src' wts bias dst : Buf)
    (tin tin' tw tb tout : Tensor) (c : ConvCfg) (ih iw ic kh kw kn oh ow : Int) (ww wb : Nat) (hww : 1 ≤ ww)
    (A : ConvArgs tin tw tb tout c src wts bias dst 16 ww wb) (A' : ConvArgs tin' tw tb tout c.unpadded src' wts bias dst 16 ww wb)
    (hchk : chkConvFx false ks apart f tin tw tb c tout = some .ok)
    (hchk' : chkConvFx false ks apart' f tin' tw tb c.unpadded tout = some .ok)
    (E : Extended c 0 tin src tin' src' ih iw ic) (sk : tw.shape = [kh, kw, ic, kn]) (so : tout.shape = [oh, ow, kn])
    (hmeet : RowsMeet ih kh oh c) (hfit : ic * (kh * kw) * (2 ^ 15 * 2 ^ (ww - 1)) ≤ hi aw) :
    ∃ d d' val, krnConvFx m aw ks apart f src wts bias tin tw tb c tout dst = some (.ok, d) ∧
      krnConvFx m aw ks apart' f src' wts bias tin' tw tb c.unpadded tout dst = some (.ok, d') ∧
      tout.Writes val dst d ∧ tout.Writes val dst d' := by
  obtain ⟨-, -, ⟨t1, -⟩, ⟨t2, -⟩, ⟨t3, -⟩, ⟨t4, -⟩, -⟩ := A.hc
  obtain ⟨d, v, r1, r2, r3⟩ := krnConvFx_exact m aw ks apart f src wts bias dst tin tw tb tout c ih iw ic kh kw kn oh ow ww wb hww A hchk
    E.shape sk so hmeet hfit
  obtain ⟨d', v', q1, q2, q3⟩ := krnConvFx_exact m aw ks apart' f src' wts bias dst tin' tw tb tout c.unpadded _ _ ic kh kw kn oh ow ww wb hww
    A' hchk' E.shape' sk so (hmeet.unpadded ⟨t1, t2⟩) hfit
  refine ⟨d, d', v, r1, q1, r2, q2.congr fun is hs => ?_⟩
  have hs' := hs
  rw [so] at hs'
  obtain ⟨y, x, k, rfl, hk⟩ := inShape3 hs'
  rw [(r3 y x k hs).2.2, (q3 y x k hs).2.2]
  congr 2
  exact convSum_explicit 0 (inElem src tin) (inElem src' tin') (wtElem wts tw k) c.sh c.sw c.pt c.pb c.pl c.pr c.dh c.dw y x ⟨t1, t2, t3, t4⟩
    (fun r q cc hcc a b c' d => E.elems r q cc a b c' d (by omega) hcc)

/-- C38, fixed-point depthwise convolution. -/
theorem c38_depthwise_fx_partial (m : Rnd) (aw : Nat) (ks : Int) (apart apart' : Bool) (f : FxQ) (src src' wts bias dst : Buf)
    (tin tin' tw tb tout : Tensor) (c : ConvCfg) (ih iw ic kh kw oh ow : Int) (ww wb : Nat) (hww : 1 ≤ ww)
    (A : ConvArgs tin tw tb tout c src wts bias dst 16 ww wb) (A' : ConvArgs tin' tw tb tout c.unpadded src' wts bias dst 16 ww wb)
    (hchk : chkConvFx true ks apart f tin tw tb c tout = some .ok)
    (hchk' : chkConvFx true ks apart' f tin' tw tb c.unpadded tout = some .ok)
    (E : Extended c 0 tin src tin' src' ih iw ic) (sk : tw.shape = [kh, kw, 1, ic]) (so : tout.shape = [oh, ow, ic])
    (hfit : kh * kw * (2 ^ 15 * 2 ^ (ww - 1)) ≤ hi aw)
    (hadd : ∀ b a, InRange wb b → InRange aw a → InRange aw (biasFx m aw (f.fi + f.fw - f.fb) b a)) :
    ∃ d d' val, krnDwFx m aw ks apart f src wts bias tin tw tb c tout dst = some (.ok, d) ∧
      krnDwFx m aw ks apart' f src' wts bias tin' tw tb c.unpadded tout dst = some (.ok, d') ∧
      tout.Writes val dst d ∧ tout.Writes val dst d' := by
  obtain ⟨-, -, ⟨t1, -⟩, ⟨t2, -⟩, ⟨t3, -⟩, ⟨t4, -⟩, -⟩ := A.hc
  obtain ⟨d, v, r1, r2, r3⟩ := krnDwFx_exact m aw ks apart f src wts bias dst tin tw tb tout c ih iw ic kh kw oh ow ww wb hww A hchk
    E.shape sk so hfit hadd
  obtain ⟨d', v', q1, q2, q3⟩ := krnDwFx_exact m aw ks apart' f src' wts bias dst tin' tw tb tout c.unpadded _ _ ic kh kw oh ow ww wb hww
    A' hchk' E.shape' sk so hfit hadd
  refine ⟨d, d', v, r1, q1, r2, q2.congr fun is hs => ?_⟩
  have hs' := hs
  rw [so] at hs'
  obtain ⟨y, x, k, rfl, hk⟩ := inShape3 hs'
  rw [(r3 y x k hs).2.2, (q3 y x k hs).2.2]
  congr 2
  exact convSum_explicit 0 (fun r q _ => inElem src tin r q k) (fun r q _ => inElem src' tin' r q k) _ c.sh c.sw c.pt c.pb c.pl c.pr c.dh c.dw y x
    ⟨t1, t2, t3, t4⟩ (fun r q cc hcc a b c' d => E.elems r q k a b c' d hk.1 hk.2)

theorem convSum_explicit_zp {kh kw n ih iw : Int} (z : Int) (X X' W : Int → Int → Int → Int) (sh sw pt pb pl pr dh dw y x : Int)
    (h0 : 0 ≤ pt ∧ 0 ≤ pb ∧ 0 ≤ pl ∧ 0 ≤ pr)
    (h : ∀ r q (c : Nat), (c : Int) < n → 0 ≤ r → r < ih + pt + pb → 0 ≤ q → q < iw + pl + pr → X' r q c = padded ih iw z X (r - pt) (q - pl) c) :
    convSum kh kw n (padded (ih + pt + pb) (iw + pl + pr) 0 fun r q c => X' r q c - z) W sh sw 0 0 dh dw y x =
      convSum kh kw n (padded ih iw 0 fun r q c => X r q c - z) W sh sw pt pl dh dw y x := by
  apply convSum_explicit 0 (fun r q c => X r q c - z) (fun r q c => X' r q c - z) W sh sw pt pb pl pr dh dw y x h0
  intro r q k hk a b c d
  rw [h r q k hk a b c d, padded_sub]

/-- C38, 8-bit asymmetric convolution: padding and extending the input with its zero point beforehand give the
same output. -/
theorem c38_conv2d_sa8_partial (m : Rnd) (full : Bool) (ks : Int) (apart apart' : Bool) (q : Sa8Q) (src src' wts bias dst : Buf)
    (tin tin' tw tb tout : Tensor) (c : ConvCfg) (ih iw ic kh kw kn oh ow : Int)
    (A : ConvArgs tin tw tb tout c src wts bias dst 8 8 32) (A' : ConvArgs tin' tw tb tout c.unpadded src' wts bias dst 8 8 32)
    (tq : q.qi.Typed ∧ q.qw.Typed ∧ q.qo.Typed)
    (hck : chkConv false ks apart tin tw tb c tout = some .ok) (hq : chkSa8 m q tin tw tb tout = some .ok)
    (hck' : chkConv false ks apart' tin' tw tb c.unpadded tout = some .ok) (hq' : chkSa8 m q tin' tw tb tout = some .ok)
    (E : Extended c (q.qi.zpAt 0) tin src tin' src' ih iw ic) (sk : tw.shape = [kh, kw, ic, kn]) (so : tout.shape = [oh, ow, kn])
    (hmeet : RowsMeet ih kh oh c) (ht : ic * (kh * kw) ≤ 65535) :
    ∃ d d' val, krnConvSa8 m full ks apart q src wts bias tin tw tb c tout dst = some (.ok, d) ∧
      krnConvSa8 m full ks apart' q src' wts bias tin' tw tb c.unpadded tout dst = some (.ok, d') ∧
      tout.Writes val dst d ∧ tout.Writes val dst d' := by
  obtain ⟨-, -, ⟨t1, -⟩, ⟨t2, -⟩, ⟨t3, -⟩, ⟨t4, -⟩, -⟩ := A.hc
  obtain ⟨rt, d, v, r1, r2, hrt, r3⟩ := krnConvSa8_exact m full ks apart q src wts bias dst tin tw tb tout c ih iw ic kh kw kn oh ow A tq hck hq
    E.shape sk so hmeet ht
  obtain ⟨rt', d', v', q1, q2, hrt', q3⟩ := krnConvSa8_exact m full ks apart' q src' wts bias dst tin' tw tb tout c.unpadded _ _ ic kh kw kn oh ow
    A' tq hck' hq' E.shape' sk so (hmeet.unpadded ⟨t1, t2⟩) ht
  rw [hrt] at hrt'
  cases hrt'
  refine ⟨d, d', v, r1, q1, r2, q2.congr fun is hs => ?_⟩
  have hs' := hs
  rw [so] at hs'
  obtain ⟨y, x, k, rfl, hk⟩ := inShape3 hs'
  rw [(r3 y x k hs).2.2.2, (q3 y x k hs).2.2.2]
  congr 2
  exact convSum_explicit_zp (q.qi.zpAt 0) (inElem src tin) (inElem src' tin') (wtElem wts tw k) c.sh c.sw c.pt c.pb c.pl c.pr c.dh c.dw y x
    ⟨t1, t2, t3, t4⟩ (fun r q cc hcc a b c' d => E.elems r q cc a b c' d (by omega) hcc)

/-- C38, 8-bit asymmetric depthwise convolution. -/
theorem c38_depthwise_sa8_partial (m : Rnd) (full : Bool) (ks : Int) (apart apart' : Bool) (q : Sa8Q) (src src' wts bias dst : Buf)
    (tin tin' tw tb tout : Tensor) (c : ConvCfg) (ih iw ic kh kw oh ow : Int)
    (A : ConvArgs tin tw tb tout c src wts bias dst 8 8 32) (A' : ConvArgs tin' tw tb tout c.unpadded src' wts bias dst 8 8 32)
    (tq : q.qi.Typed ∧ q.qw.Typed ∧ q.qo.Typed)
    (hck : chkConv true ks apart tin tw tb c tout = some .ok) (hq : chkSa8 m q tin tw tb tout = some .ok)
    (hck' : chkConv true ks apart' tin' tw tb c.unpadded tout = some .ok) (hq' : chkSa8 m q tin' tw tb tout = some .ok)
    (E : Extended c (q.qi.zpAt 0) tin src tin' src' ih iw ic) (sk : tw.shape = [kh, kw, 1, ic]) (so : tout.shape = [oh, ow, ic])
    (ht : kh * kw ≤ 65535) :
    ∃ d d' val, krnDwSa8 m full ks apart q src wts bias tin tw tb c tout dst = some (.ok, d) ∧
      krnDwSa8 m full ks apart' q src' wts bias tin' tw tb c.unpadded tout dst = some (.ok, d') ∧
      tout.Writes val dst d ∧ tout.Writes val dst d' := by
  obtain ⟨-, -, ⟨t1, -⟩, ⟨t2, -⟩, ⟨t3, -⟩, ⟨t4, -⟩, -⟩ := A.hc
  obtain ⟨rt, d, v, r1, r2, hrt, r3⟩ := krnDwSa8_exact m full ks apart q src wts bias dst tin tw tb tout c ih iw ic kh kw oh ow A tq hck hq
    E.shape sk so ht
  obtain ⟨rt', d', v', q1, q2, hrt', q3⟩ := krnDwSa8_exact m full ks apart' q src' wts bias dst tin' tw tb tout c.unpadded _ _ ic kh kw oh ow
    A' tq hck' hq' E.shape' sk so ht
  rw [hrt] at hrt'
  cases hrt'
  refine ⟨d, d', v, r1, q1, r2, q2.congr fun is hs => ?_⟩
  have hs' := hs
  rw [so] at hs'
  obtain ⟨y, x, k, rfl, hk⟩ := inShape3 hs'
  rw [(r3 y x k hs).2.2.2, (q3 y x k hs).2.2.2]
  congr 2
  exact convSum_explicit_zp (q.qi.zpAt 0) (fun r q _ => inElem src tin r q k) (fun r q _ => inElem src' tin' r q k) _ c.sh c.sw c.pt c.pb c.pl c.pr
    c.dh c.dw y x ⟨t1, t2, t3, t4⟩ (fun r q cc hcc a b c' d => E.elems r q k a b c' d hk.1 hk.2)

end Mli
