import Verif.Lemmas.ConvertFloat
import Verif.Props.Convert

/-! # Conversion from and to floating point (C91 to C93) -/

namespace Mli

open Spec

/-! ## Checks -/

theorem chkConvertAny_shape {src dst : AnyT} (h : chkConvertAny src dst = some .ok) :
    src.t.shape = dst.t.shape ∧ chkAny src = some .ok ∧ chkAny dst = some .ok := by
  unfold chkConvertAny at h
  rcases h1 : chkAny src with _ | s
  · rw [h1] at h; cases h
  rw [h1, Option.bind_some] at h
  by_cases hs : s = .ok
  · subst hs
    rw [if_neg (by simp)] at h
    rcases h2 : chkAny dst with _ | s
    · rw [h2] at h; cases h
    rw [h2, Option.map_some, Option.some.injEq] at h
    by_cases hs : s = .ok
    · subst hs
      rw [if_neg (by simp)] at h
      by_cases c1 : (!sameShape src.t dst.t) = true
      · rw [if_pos c1] at h; cases h
      · exact ⟨by simpa [sameShape] using c1, rfl, rfl⟩
    · rw [if_pos hs] at h; exact absurd h hs
  · rw [if_pos hs] at h
    exact absurd (Option.some.inj h) hs

/-! ## The loops -/

theorem floatAxis_dim {a : QTensor} (hs : a.ty.isSa) (hd : 0 ≤ a.q.dim) : floatAxis a = a.q.dim := by
  unfold floatAxis
  rw [hs]
  simp only [Bool.true_and, ge_iff_le, hd, decide_true, if_true]

theorem floatAxis_lt {a : QTensor} (h : a.ty.isSa → chkQuant a.t a.q 15 = .ok) : floatAxis a < a.t.dims.length := by
  unfold floatAxis
  simp only [Bool.and_eq_true, decide_eq_true_eq]
  split
  · next hc => have := chkQuant_dim (h hc.1); omega
  · omega

theorem forScales_write (a : QTensor) (out : Tensor) (d : Buf) (ho : out.Valid d) (hs : a.t.shape = out.shape)
    (hq : a.ty.isSa → chkQuant a.t a.q 15 = .ok) (val : List Int → Int) (f : Int → Int → Int → Int → Int → Buf → Option Buf)
    (hf : ∀ (is : List Int) (i j k l : Int) (d' : Buf), InShape out.shape is → d'.size = d.size →
      (∀ t' : Tensor, t'.shape = out.shape → t'.base + t'.rPos i j k l = t'.addr is) →
      f (paramIdx (floatAxis a) is) i j k l d' = d'.wr (out.addr is) (val is)) :
    ∃ d', forScales a f d = some d' ∧ out.Writes val d d' := by
  have hl : a.t.dims.length = out.dims.length := length_congr hs
  have hax : floatAxis a < out.dims.length := by have := floatAxis_lt hq; omega
  obtain ⟨d', h1, h2⟩ := slices_write a.t out d ho hs (floatAxis a) hax val f
    (fun sl p hsl hp d' hd _ => by
      obtain ⟨a1, a2, a3⟩ := slice_param ho.rank hax hsl hp
      rw [← a3]
      refine hf _ _ _ _ _ d' a1 hd (fun t' ht' => ?_)
      have hl' : t'.dims.length = out.dims.length := length_congr ht'
      have hp' : p ∈ slicePts t' (axisDim t' (floatAxis a)) sl := by
        rw [slicePts_congr ht', axisDim_congr ht']; exact hp
      have := (slice_param (by rw [hl']; exact ho.rank) (by omega) (by rw [ht']; exact hsl) hp').2.1
      rw [this]
      unfold ptIdx
      rw [hl'])
  refine ⟨d', ?_, h2⟩
  rw [← h1]
  unfold forScales
  have hn := slice_num (by rw [hl]; exact ho.rank) (t := a.t) (axis := floatAxis a) (by omega)
  have hx : (if floatAxis a ≥ 0 then floatAxis a + ((maxRank : Nat) - (a.t.dims.length : Int)) else -1) = axisDim a.t (floatAxis a) := rfl
  simp only [hx, hn, hs]

/-! ## Parameters of an element -/

/-- Types of scales, shifts and zero points. -/
structure QTensor.Typed (a : QTensor) : Prop where
  q : a.q.Typed
  fx : InRange 8 a.fx

theorem QTensor.frac_ok {a : QTensor} (h : a.Typed) (k : Int) : InRange 8 (a.frac k) := by
  unfold QTensor.frac
  split
  · unfold SaQ.fracAt
    rw [List.getD_eq_getElem?_getD]
    rcases hg : a.q.frac[a.q.idx k]? with _ | s
    · show InRange 8 0; decide
    · exact h.q.2.2 s (List.mem_of_getElem? hg)
  · exact h.fx

theorem param_ok {a : QTensor} (ht : a.Typed) (hq : a.ty.isSa → chkQuant a.t a.q 15 = .ok) {is : List Int} (hi : InShape a.t.shape is) :
    ∃ s f z, a.scale (paramIdx (floatAxis a) is) = s ∧ a.frac (paramIdx (floatAxis a) is) = f ∧ a.zp (paramIdx (floatAxis a) is) = z ∧
      ScaleOk s f ∧ -128 ≤ f ∧ InRange 16 z ∧ a.zpOf is = z ∧ a.stepOf is = scaleVal s f := by
  have hax := floatAxis_lt hq
  have hlt := paramIdx_lt (axis := floatAxis a) hi (by simp [Tensor.shape]; omega)
  obtain ⟨k3, k4, k6⟩ := QTensor.scale_ok ht.q hq floatAxis_dim hlt.1 hlt.2
  obtain ⟨b1, b2, b3⟩ := axis_congr (a := a) (A := floatAxis a) floatAxis_dim is
  have hf := QTensor.frac_ok ht (paramIdx (floatAxis a) is)
  have h4 := k4.2
  have f1 := hf.1
  have f2 := hf.2
  simp only [Spec.hi, lo] at h4 f1 f2
  refine ⟨_, _, _, rfl, rfl, rfl, ⟨k3, by omega, by omega⟩, by omega, k6, b1.symm, ?_⟩
  unfold QTensor.stepOf
  rw [← b2, ← b3]

/-! ## To floating point -/

theorem dequantVal_nearest {a : QTensor} {k x : Int} (hx : InRange 16 x) (hz : InRange 16 (a.zp k)) (hs : ScaleOk (a.scale k) (a.frac k))
    (h1 : scaleVal (a.scale k) (a.frac k) ≤ maxFloat) (h2 : |((x - a.zp k : Int) : ℚ) * scaleVal (a.scale k) (a.frac k)| ≤ maxFloat) :
    NearestFloat (dequantVal a k x) (((x - a.zp k : Int) : ℚ) * scaleVal (a.scale k) (a.frac k)) ∧
      f32val (dequantVal a k x) = some (fl (((x - a.zp k : Int) : ℚ) * scaleVal (a.scale k) (a.frac k))) := by
  have x1 := hx.1
  have x2 := hx.2
  have z1 := hz.1
  have z2 := hz.2
  simp only [Spec.hi, lo] at x1 x2 z1 z2
  have e : subFx 32 x (a.zp k) = x - a.zp k := by
    rw [subFx_eq (by constructor <;> simp only [Spec.hi, lo] <;> omega) (by constructor <;> simp only [Spec.hi, lo] <;> omega),
      clamp_of_inRange (by constructor <;> simp only [Spec.hi, lo] <;> omega)]
  have v1 := val_ofInt_exact (i := x - a.zp k) (by rw [abs_le]; constructor <;> omega)
  have v2 := val_dequantScale hs h1
  obtain ⟨m1, m2⟩ := fmul_eq v1 v2
  unfold dequantVal dequantScale
  rw [e, m1]
  exact ⟨nearest_ofRat h2 m2, val_ofRat h2 m2⟩

theorem dequant_run (mem d : Buf) (src : QTensor) (dst : Tensor) (vs : src.t.Valid mem) (vd : dst.Valid d) (m : Rnd)
    (hc : chkConvertAny (.q src) (.f dst) = some .ok) :
    ∃ d' val, hlpConvertAny m mem (.q src) (.f dst) d = some (.ok, d') ∧ dst.Writes val d d' ∧
      ∀ is, val is = dequantVal src (paramIdx (floatAxis src) is) (mem.get (src.t.addr is)) := by
  obtain ⟨hsh, c1, -⟩ := chkConvertAny_shape hc
  have hq := (chkQTensor_ok c1).2
  obtain ⟨d', h1, h2⟩ := forScales_write src dst d vd hsh hq (fun is => dequantVal src (paramIdx (floatAxis src) is) (mem.get (src.t.addr is)))
    (fun sl a b c e d => (mem.rd (src.t.base + src.t.rPos a b c e)).bind fun x => d.wr (dst.base + dst.rPos a b c e) (dequantVal src sl x))
    (fun is i j k l d' hi hd hp => by
      rw [hp src.t hsh, hp dst rfl, vs.rd (by rw [show src.t.shape = dst.shape from hsh]; exact hi) rfl, Option.bind_some])
  refine ⟨d', _, ?_, h2, fun is => rfl⟩
  unfold hlpConvertAny
  rw [hc, Option.bind_some, if_neg (by simp)]
  show (dequantizeRun mem src dst d).map _ = _
  unfold dequantizeRun
  rw [h1]
  rfl

/-- C91: converting an 8- or 16-bit tensor to floating point stores, for every element, the single-precision number nearest to
`(x - zero point) * scale`, and changes nothing else, if this product is in the range of single precision (the scale too, which matters
for an element equal to the zero point). -/
theorem c91_nearest (m : Rnd) (mem d : Buf) (src : QTensor) (dst : Tensor) (vs : src.t.Valid mem) (vd : dst.Valid d) (ht : src.Typed)
    (hc : chkConvertAny (.q src) (.f dst) = some .ok) (hw : src.ty ≠ .sa32) (hx : src.t.Holds mem src.ty.width)
    (hr : ∀ is, InShape src.t.shape is → src.stepOf is ≤ maxFloat ∧ |(mem.get (src.t.addr is) - src.zpOf is) * src.stepOf is| ≤ maxFloat) :
    ∃ d' val, hlpConvertAny m mem (.q src) (.f dst) d = some (.ok, d') ∧ dst.Writes val d d' ∧ ∀ is, InShape dst.shape is →
      NearestFloat (val is) ((mem.get (src.t.addr is) - src.zpOf is) * src.stepOf is) := by
  obtain ⟨hsh, c1, -⟩ := chkConvertAny_shape hc
  have hsh : src.t.shape = dst.shape := hsh
  have hq := (chkQTensor_ok c1).2
  obtain ⟨d', val, h1, h2, h3⟩ := dequant_run mem d src dst vs vd m hc
  refine ⟨d', val, h1, h2, fun is hi => ?_⟩
  rw [← hsh] at hi
  obtain ⟨s, f, z, e1, e2, e3, p1, -, p3, p4, p5⟩ := param_ok ht hq hi
  have hr := hr is hi
  rw [p4, p5] at hr
  rw [h3, p4, p5]
  have hx' : InRange 16 (mem.get (src.t.addr is)) := by
    have := hx is hi
    have b1 := this.1
    have b2 := this.2
    revert b1 b2 hw
    cases src.ty <;> simp only [ElT.width, Spec.hi, lo] <;> intro hw b1 b2
    · constructor <;> simp only [Spec.hi, lo] <;> omega
    · exact ⟨b1, b2⟩
    · constructor <;> simp only [Spec.hi, lo] <;> omega
    · exact absurd rfl hw
  have := (dequantVal_nearest (a := src) (k := paramIdx (floatAxis src) is) hx' (by rw [e3]; exact p3) (by rw [e1, e2]; exact p1)
    (by rw [e1, e2]; exact hr.1) (by rw [e1, e2, e3]; push_cast; exact hr.2)).1
  rw [e1, e2, e3] at this
  push_cast at this
  exact this

/-- C91: the number is exact if `|x - zero point|` times the integer scale has at most 24 bits, as for every fixed-point tensor and for
every `SA_8` tensor with an 8-bit zero point. -/
theorem c91_exact (m : Rnd) (mem d : Buf) (src : QTensor) (dst : Tensor) (vs : src.t.Valid mem) (vd : dst.Valid d) (ht : src.Typed)
    (hc : chkConvertAny (.q src) (.f dst) = some .ok) (hw : src.ty ≠ .sa32) (hx : src.t.Holds mem src.ty.width)
    (hz : src.ty = .sa8 → ∀ is, InShape src.t.shape is → InRange 8 (src.zpOf is)) (hr : ∀ is, InShape src.t.shape is → src.stepOf is ≤ 2 ^ 100) :
    ∃ d' val, hlpConvertAny m mem (.q src) (.f dst) d = some (.ok, d') ∧ dst.Writes val d d' ∧ ∀ is, InShape dst.shape is →
      f32val (val is) = some ((mem.get (src.t.addr is) - src.zpOf is) * src.stepOf is) := by
  obtain ⟨hsh, c1, -⟩ := chkConvertAny_shape hc
  have hsh : src.t.shape = dst.shape := hsh
  have hq := (chkQTensor_ok c1).2
  obtain ⟨d', val, h1, h2, h3⟩ := dequant_run mem d src dst vs vd m hc
  refine ⟨d', val, h1, h2, fun is hi => ?_⟩
  rw [← hsh] at hi
  obtain ⟨s, f, z, e1, e2, e3, p1, -, p3, p4, p5⟩ := param_ok ht hq hi
  have hr := hr is hi
  rw [p5] at hr
  have hsp := scaleVal_pos (f := f) p1.pos
  have hs1 : src.ty.isSa = false → s = 1 ∧ z = 0 := by
    intro h
    rw [← e1, ← e3]
    unfold QTensor.scale QTensor.zp
    rw [h]
    exact ⟨rfl, rfl⟩
  have hb : InRange 16 (mem.get (src.t.addr is)) ∧ |(mem.get (src.t.addr is) - z) * s| ≤ 2 ^ 24 ∧ |mem.get (src.t.addr is) - z| ≤ 2 ^ 16 := by
    have this := hx is hi
    have hz := fun h => hz h is hi
    rw [p4] at hz
    have b1 := this.1
    have b2 := this.2
    have s1 := p1.pos
    have s2 := p1.s16
    generalize mem.get (src.t.addr is) = x at *
    revert b1 b2 hw hz hs1
    cases src.ty <;> simp only [ElT.width, Spec.hi, lo, ElT.isSa] <;> intro hw hs1 hz b1 b2
    · obtain ⟨rfl, rfl⟩ := hs1 trivial
      exact ⟨by constructor <;> simp only [Spec.hi, lo] <;> omega, by rw [abs_le]; constructor <;> omega, by rw [abs_le]; constructor <;> omega⟩
    · obtain ⟨rfl, rfl⟩ := hs1 trivial
      exact ⟨⟨b1, b2⟩, by rw [abs_le]; constructor <;> omega, by rw [abs_le]; constructor <;> omega⟩
    · have z1 := (hz trivial).1
      have z2 := (hz trivial).2
      simp only [Spec.hi, lo] at z1 z2
      refine ⟨by constructor <;> simp only [Spec.hi, lo] <;> omega, ?_, by rw [abs_le]; constructor <;> omega⟩
      rw [abs_mul, abs_of_pos s1]
      have h3 : |x - z| ≤ 255 := by rw [abs_le]; constructor <;> omega
      calc |x - z| * s ≤ 255 * 2 ^ 15 := Int.mul_le_mul h3 (by omega) (by omega) (by decide)
        _ ≤ 2 ^ 24 := by decide
    · exact absurd rfl hw
  have hb3 : |((mem.get (src.t.addr is) - z : Int) : ℚ)| ≤ 2 ^ 16 := by exact_mod_cast hb.2.2
  have hmax : (2 : ℚ) ^ 116 ≤ maxFloat := by norm_num [maxFloat]
  have := (dequantVal_nearest (a := src) (k := paramIdx (floatAxis src) is) hb.1 (by rw [e3]; exact p3) (by rw [e1, e2]; exact p1)
    (by rw [e1, e2]; refine le_trans hr (le_trans ?_ hmax); norm_num) (by
      rw [e1, e2, e3, abs_mul, abs_of_pos hsp]
      refine le_trans (mul_le_mul hb3 hr hsp.le (by positivity)) (le_trans (le_of_eq ?_) hmax)
      norm_num)).2
  rw [e1, e2, e3] at this
  rw [h3, this, p4, p5]
  have e : ((mem.get (src.t.addr is) - z : Int) : ℚ) * scaleVal s f = (((mem.get (src.t.addr is) - z) * s : Int) : ℚ) * 2 ^ (-f) := by
    unfold scaleVal; push_cast; ring
  rw [e, fl_exact hb.2.1 (by have := p1.f8; omega), ← e]
  push_cast
  rfl

/-- C91, for every type, also `SA_32`, whose elements are rounded to single precision before the multiplication: the number is within a
relative error `2^-22` of the product. -/
theorem c91_accuracy (m : Rnd) (mem d : Buf) (src : QTensor) (dst : Tensor) (vs : src.t.Valid mem) (vd : dst.Valid d) (ht : src.Typed)
    (hc : chkConvertAny (.q src) (.f dst) = some .ok) (hx : src.t.Holds mem src.ty.width)
    (hd : ∀ is, InShape src.t.shape is → InRange 32 (mem.get (src.t.addr is) - src.zpOf is))
    (hr : ∀ is, InShape src.t.shape is → src.stepOf is ≤ maxFloat ∧ |(mem.get (src.t.addr is) - src.zpOf is) * src.stepOf is| ≤ 2 ^ 127) :
    ∃ d' val, hlpConvertAny m mem (.q src) (.f dst) d = some (.ok, d') ∧ dst.Writes val d d' ∧ ∀ is, InShape dst.shape is →
      let exact := (mem.get (src.t.addr is) - src.zpOf is) * src.stepOf is
      ∃ y, f32val (val is) = some y ∧ |y - exact| ≤ |exact| / 2 ^ 22 + 1 / 2 ^ 150 := by
  obtain ⟨hsh, c1, -⟩ := chkConvertAny_shape hc
  have hsh : src.t.shape = dst.shape := hsh
  have hq := (chkQTensor_ok c1).2
  obtain ⟨d', val, h1, h2, h3⟩ := dequant_run mem d src dst vs vd m hc
  refine ⟨d', val, h1, h2, fun is hi => ?_⟩
  rw [← hsh] at hi
  obtain ⟨s, f, z, e1, e2, e3, p1, -, p3, p4, p5⟩ := param_ok ht hq hi
  have hr := hr is hi
  have hd := hd is hi
  have hxr : InRange 32 (mem.get (src.t.addr is)) := by
    have := hx is hi
    have b1 := this.1
    have b2 := this.2
    revert b1 b2
    cases src.ty <;> simp only [ElT.width, Spec.hi, lo] <;> intro b1 b2 <;> constructor <;> simp only [Spec.hi, lo] <;> omega
  rw [p4, p5] at hr
  rw [p4] at hd
  rw [h3, p4, p5]
  generalize mem.get (src.t.addr is) = x at *
  have z1 := p3.1
  have z2 := p3.2
  have d1 := hd.1
  have d2 := hd.2
  simp only [Spec.hi, lo] at z1 z2 d1 d2
  have e : subFx 32 x z = x - z := by
    rw [subFx_eq hxr (by constructor <;> simp only [Spec.hi, lo] <;> omega), clamp_of_inRange hd]
  have v1 := val_ofInt (i := x - z) (intBound (by rw [abs_le]; constructor <;> omega))
  have v2 := val_dequantScale p1 hr.1
  have hS := scaleVal_pos (f := f) p1.pos
  have hfl : |fl ((x - z : Int) : ℚ) - ((x - z : Int) : ℚ)| ≤ |((x - z : Int) : ℚ)| / 2 ^ 24 := by
    by_cases h0 : x - z = 0
    · rw [h0]; have := fl_int (a := 0) (by decide); rw [this]; simp
    · refine fl_rel ?_
      have : 1 ≤ |x - z| := Int.one_le_abs h0
      have : (1 : ℚ) ≤ |((x - z : Int) : ℚ)| := by exact_mod_cast this
      refine le_trans ?_ this
      norm_num
  have hE := hr.2
  have hcast : ((x : ℚ) - z) = ((x - z : Int) : ℚ) := by push_cast; rfl
  rw [hcast] at hE ⊢
  generalize ((x - z : Int) : ℚ) = n at *
  have g1 : |fl n * scaleVal s f - n * scaleVal s f| ≤ |n * scaleVal s f| / 2 ^ 24 := by
    rw [← sub_mul, abs_mul, abs_mul, abs_of_pos hS, mul_div_right_comm]
    exact mul_le_mul_of_nonneg_right hfl hS.le
  have hv0 : dequantVal src (paramIdx (floatAxis src) is) x = fmul (fofInt (x - z)) (fldexp (fofInt s) (-f)) := by
    unfold dequantVal dequantScale
    rw [e1, e2, e3, e]
  rw [hv0]
  have hmax : (2 : ℚ) ^ 127 + 2 ^ 127 / 2 ^ 24 ≤ maxFloat := by norm_num [maxFloat]
  generalize hG : n * scaleVal s f = G at *
  have g2 : |fl n * scaleVal s f| ≤ |G| + |G| / 2 ^ 24 := by
    have := abs_sub_abs_le_abs_sub (fl n * scaleVal s f) G
    linarith
  have g3 := val_mul v1 v2 (by linarith)
  refine ⟨_, g3, ?_⟩
  have g4 := fl_err (fl n * scaleVal s f)
  have g5 := abs_sub_le (fl (fl n * scaleVal s f)) (fl n * scaleVal s f) G
  have := abs_nonneg G
  linarith

/-- C91: between floating-point tensors all patterns are copied. -/
theorem c91_copy (m : Rnd) (mem d : Buf) (src dst : Tensor) (vs : src.Valid mem) (vd : dst.Valid d)
    (hc : chkConvertAny (.f src) (.f dst) = some .ok) :
    ∃ d', hlpConvertAny m mem (.f src) (.f dst) d = some (.ok, d') ∧ dst.Writes (fun is => mem.get (src.addr is)) d d' := by
  obtain ⟨hsh, -, -⟩ := chkConvertAny_shape hc
  have hsh : src.shape = dst.shape := hsh
  obtain ⟨d', h1, h2⟩ := forScales_write { t := dst, ty := .fx8 } dst d vd rfl (by intro h; cases h) (fun is => mem.get (src.addr is))
    (fun _ a b c e d => (mem.rd (src.base + src.rPos a b c e)).bind fun x => d.wr (dst.base + dst.rPos a b c e) x)
    (fun is i j k l d' hi hd hp => by
      rw [hp src hsh, hp dst rfl, vs.rd (by rw [hsh]; exact hi) rfl, Option.bind_some])
  refine ⟨d', ?_, h2⟩
  unfold hlpConvertAny
  rw [hc, Option.bind_some, if_neg (by simp)]
  show (copyFloatRun mem src dst d).map _ = _
  have : copyFloatRun mem src dst d = some d' := by
    rw [← h1]
    unfold copyFloatRun forScales floatAxis
    simp [ElT.isSa, forRange]
  rw [this]
  rfl

/-- A call that is not accepted changes nothing. -/
theorem c91_rejected (m : Rnd) (mem d d' : Buf) (src dst : AnyT) (s : Status) (h : hlpConvertAny m mem src dst d = some (s, d')) (hs : s ≠ .ok) :
    d' = d := by
  unfold hlpConvertAny at h
  rcases hc : chkConvertAny src dst with _ | t
  · rw [hc] at h; cases h
  rw [hc, Option.bind_some] at h
  have fin : ∀ o : Option Buf, o.map (fun d => (Status.ok, d)) = some (s, d') → False := by
    intro o ho
    rcases o with _ | o
    · cases ho
    · simp only [Option.map_some, Option.some.injEq, Prod.mk.injEq] at ho
      exact hs ho.1.symm
  by_cases ht : t = .ok
  · rw [if_neg (not_not.2 ht)] at h
    rcases src with a | a <;> rcases dst with b | b
    · exact c50_rejected m mem d d' a b s h hs
    · exact (fin _ h).elim
    · exact (fin _ h).elim
    · exact (fin _ h).elim
  · rw [if_pos ht] at h
    simp only [Option.some.injEq, Prod.mk.injEq] at h
    exact h.2.symm

/-- For `SA_32` the number is not always the nearest one: the element is rounded before it is multiplied. -/
theorem c91_sa32_violated : ∃ (src : QTensor) (dst : Tensor) (mem : Buf), src.Typed ∧ src.t.Valid mem ∧ dst.Valid (Buf.ofList [0]) ∧
    chkConvertAny (.q src) (.f dst) = some .ok ∧ mem.get (src.t.addr [0]) = 16777217 ∧ src.zpOf [0] = 0 ∧ src.stepOf [0] = 3 ∧
    (hlpConvertAny .up mem (.q src) (.f dst) (Buf.ofList [0])).map (fun r => r.2.toList.map f32val) = some [some 50331648] ∧
    f32val 0x4c400001 = some 50331652 ∧ ¬ NearestFloat 0x4c400000 (16777217 * 3) := by
  refine ⟨{ t := { dims := [⟨1, 1⟩], cap := 4, es := 4 }, ty := .sa32, q := ⟨-1, [0], [3], [0]⟩ }, { dims := [⟨1, 1⟩], cap := 4, es := 4 },
    Buf.ofList [16777217], ⟨by decide, by decide⟩, ⟨by decide, by decide, by decide, by decide⟩, ⟨by decide, by decide, by decide, by decide⟩, by decide,
    by decide, by decide, by decide +kernel, by decide +kernel, by decide +kernel, ?_⟩
  rintro ⟨x, hx, h⟩
  have h1 := h 0x4c400001 50331652 (by decide) (by decide) (by decide +kernel)
  have h2 : f32val 0x4c400000 = some 50331648 := by decide +kernel
  rw [h2] at hx
  rw [← Option.some.inj hx] at h1
  norm_num [abs_of_pos] at h1

/-! ## From floating point -/

theorem store_float {wo : Nat} (hw : 2 ≤ wo ∧ wo ≤ 32) (m : Rnd) {t z : Int} (ht : InRange 32 t) (hz : InRange 16 z) :
    castFx m 32 wo (addFx 32 t z) 0 = clamp wo (t + z) := by
  have hz32 : InRange 32 z := by
    have z1 := hz.1
    have z2 := hz.2
    simp only [Spec.hi, lo] at z1 z2
    constructor <;> simp only [Spec.hi, lo] <;> omega
  rw [addFx_eq ht hz32, castFx_eq m hw.1 hw.2 (clamp_inRange _ _), show asrRndFx m 32 (clamp 32 (t + z)) 0 = clamp 32 (t + z) by simp [asrRndFx]]
  obtain ⟨b1, b2, b3⟩ := hi_bound hw
  have l32 : lo 32 = -(2 ^ 31) := by decide
  have h32 : Spec.hi 32 = 2 ^ 31 - 1 := by decide
  unfold clamp
  rw [l32, h32]
  split <;> split <;> (try split) <;> (try split) <;> (try split) <;> omega

/-- The error of a limited value: an error that grows with `|e|` counts only up to the limit. -/
theorem limit_close {l h z t e c k : ℚ} (hlh : l ≤ h) (hk : 0 ≤ k) (hk1 : k ≤ 1) (ht : |t - e| ≤ c + |e| * k) (hc : 0 ≤ c) :
    |limitQ l h (t + z) - limitQ l h (z + e)| ≤ c + |limitQ l h (z + e) - z| * k := by
  have a := abs_le.1 ht
  have mono : ∀ x y : ℚ, x ≤ y → x - |x| * k ≤ y - |y| * k := by
    intro x y hxy
    have : |y| - |x| ≤ y - x := by
      have := abs_sub_abs_le_abs_sub y x
      rw [abs_of_nonneg (by linarith : 0 ≤ y - x)] at this
      exact this
    nlinarith
  have mono2 : ∀ x y : ℚ, x ≤ y → x + |x| * k ≤ y + |y| * k := by
    intro x y hxy
    have : |x| - |y| ≤ y - x := by
      have := abs_sub_abs_le_abs_sub x y
      rw [abs_sub_comm, abs_of_nonneg (by linarith : 0 ≤ y - x)] at this
      exact this
    nlinarith
  rcases le_total h (z + e) with h1 | h1
  · have e1 : limitQ l h (z + e) = h := by unfold limitQ; rw [min_eq_left h1, max_eq_right hlh]
    rw [e1]
    have h2 := mono (h - z) e (by linarith)
    have h3 : limitQ l h (t + z) ≤ h := by unfold limitQ; exact max_le hlh (min_le_left _ _)
    rw [abs_of_nonpos (by linarith)]
    have h5 : 0 ≤ |h - z| * k := by positivity
    rcases le_total h (t + z) with h4 | h4
    · have : limitQ l h (t + z) = h := by unfold limitQ; rw [min_eq_left h4, max_eq_right hlh]
      linarith
    · have : t + z ≤ limitQ l h (t + z) := by unfold limitQ; rw [min_eq_right h4]; exact le_max_right _ _
      linarith
  · rcases le_total (z + e) l with h2 | h2
    · have e1 : limitQ l h (z + e) = l := by unfold limitQ; rw [min_eq_right h1, max_eq_left h2]
      rw [e1]
      have h3 := mono2 e (l - z) (by linarith)
      have h4 : l ≤ limitQ l h (t + z) := by unfold limitQ; exact le_max_left _ _
      rw [abs_of_nonneg (by linarith)]
      have h5 : 0 ≤ |l - z| * k := by positivity
      rcases le_total (t + z) l with h6 | h6
      · have : limitQ l h (t + z) = l := by unfold limitQ; rw [min_eq_right (by linarith), max_eq_left h6]
        linarith
      · have : limitQ l h (t + z) ≤ t + z := by unfold limitQ; exact max_le h6 (min_le_right _ _)
        linarith
    · have e1 : limitQ l h (z + e) = z + e := by unfold limitQ; rw [min_eq_right h1, max_eq_right h2]
      refine le_trans (limitQ_sub _ _ _ _) ?_
      rw [e1, show t + z - (z + e) = t - e by ring, show z + e - z = e by ring]
      exact ht

theorem quant_run (m : Rnd) (mem d : Buf) (src : Tensor) (dst : QTensor) (vs : src.Valid mem) (vd : dst.t.Valid d)
    (hc : chkConvertAny (.f src) (.q dst) = some .ok) (val : List Int → Int)
    (hv : ∀ is, InShape dst.t.shape is → quantVal m dst (paramIdx (floatAxis dst) is) (mem.get (src.addr is)) = some (val is)) :
    ∃ d', hlpConvertAny m mem (.f src) (.q dst) d = some (.ok, d') ∧ dst.t.Writes val d d' := by
  obtain ⟨hsh, -, c2⟩ := chkConvertAny_shape hc
  have hsh : src.shape = dst.t.shape := hsh
  have hq := (chkQTensor_ok c2).2
  obtain ⟨d', h1, h2⟩ := forScales_write dst dst.t d vd rfl hq val
    (fun sl a b c e d => (mem.rd (src.base + src.rPos a b c e)).bind fun x =>
      (quantVal m dst sl x).bind fun v => d.wr (dst.t.base + dst.t.rPos a b c e) v)
    (fun is i j k l d' hi hd hp => by
      rw [hp src hsh, hp dst.t rfl, vs.rd (by rw [hsh]; exact hi) rfl, Option.bind_some, hv is hi, Option.bind_some])
  refine ⟨d', ?_, h2⟩
  unfold hlpConvertAny
  rw [hc, Option.bind_some, if_neg (by simp)]
  show (quantizeRun m mem src dst d).map _ = _
  unfold quantizeRun
  rw [h1]
  rfl

/-- What one floating-point element becomes. -/
theorem quantVal_near (m : Rnd) {dst : QTensor} (ht : dst.Typed) (hq : dst.ty.isSa → chkQuant dst.t dst.q 15 = .ok) {is : List Int}
    (hi : InShape dst.t.shape is) {x : Int} {v : ℚ} (hx : f32val x = some v)
    (hb : |v / dst.stepOf is| ≤ 2 ^ 31 - 1024) :
    ∃ t, quantVal m dst (paramIdx (floatAxis dst) is) x = some (clamp dst.ty.width (t + dst.zpOf is)) ∧
      |(t : ℚ) - v / dst.stepOf is| ≤ 1 / 2 + 1 / 2 ^ 20 + |v / dst.stepOf is| / 2 ^ 21 := by
  obtain ⟨s, f, z, e1, e2, e3, p1, -, p3, p4, p5⟩ := param_ok ht hq hi
  rw [p5] at hb ⊢
  obtain ⟨t, t1, t2, t3⟩ := floatScale_near p1 hx hb
  refine ⟨t, ?_, t3⟩
  unfold quantVal quantScale
  rw [e1, e2, e3, t1, p4, Option.map_some, store_float (by cases dst.ty <;> decide) m t2 p3]

/-- C92, restricted to values whose quotient by the scale fits 32 bits with a margin: converting a
floating-point tensor stores, for every element, a value within half a step of the exact quotient plus the zero point, limited to the
type of the destination, up to the relative error `2^-21` of single precision, and changes nothing else. -/
theorem c92_accuracy_partial (m : Rnd) (mem d : Buf) (src : Tensor) (dst : QTensor) (vs : src.Valid mem) (vd : dst.t.Valid d) (ht : dst.Typed)
    (hc : chkConvertAny (.f src) (.q dst) = some .ok) (v : List Int → ℚ) (hv : ∀ is, InShape src.shape is → f32val (mem.get (src.addr is)) = some (v is))
    (hb : ∀ is, InShape src.shape is → |v is / dst.stepOf is| ≤ 2 ^ 31 - 1024) :
    ∃ d' val, hlpConvertAny m mem (.f src) (.q dst) d = some (.ok, d') ∧ dst.t.Writes val d d' ∧ ∀ is, InShape dst.t.shape is →
      let exact := limitQ (lo dst.ty.width) (Spec.hi dst.ty.width) (dst.zpOf is + v is / dst.stepOf is)
      |(val is : ℚ) - exact| ≤ 1 / 2 + 1 / 2 ^ 20 + |exact - dst.zpOf is| / 2 ^ 21 := by
  obtain ⟨hsh, -, c2⟩ := chkConvertAny_shape hc
  have hsh : src.shape = dst.t.shape := hsh
  have hq := (chkQTensor_ok c2).2
  have key : ∀ is, InShape dst.t.shape is → ∃ y : Int, quantVal m dst (paramIdx (floatAxis dst) is) (mem.get (src.addr is)) = some y ∧
      let exact := limitQ (lo dst.ty.width) (Spec.hi dst.ty.width) (dst.zpOf is + v is / dst.stepOf is)
      |(y : ℚ) - exact| ≤ 1 / 2 + 1 / 2 ^ 20 + |exact - dst.zpOf is| / 2 ^ 21 := by
    intro is hi
    obtain ⟨t, t1, t2⟩ := quantVal_near m ht hq hi (hv is (by rw [hsh]; exact hi)) (hb is (by rw [hsh]; exact hi))
    refine ⟨_, t1, ?_⟩
    have hlh : ((lo dst.ty.width : Int) : ℚ) ≤ (Spec.hi dst.ty.width : Int) := by exact_mod_cast lo_le_hi _
    have := limit_close (z := (dst.zpOf is : ℚ)) (t := (t : ℚ)) (e := v is / dst.stepOf is) (c := 1 / 2 + 1 / 2 ^ 20) (k := 1 / 2 ^ 21) hlh
      (by positivity) (by norm_num) (by rw [← div_eq_mul_one_div]; exact t2) (by positivity)
    simp only
    rw [clamp_limit]
    push_cast
    rw [← div_eq_mul_one_div] at this
    exact this
  choose! y y1 y2 using key
  obtain ⟨d', h1, h2⟩ := quant_run m mem d src dst vs vd hc y y1
  exact ⟨d', y, h1, h2, y2⟩

/-- C92 is false for elements that are too large: instead of the limit of the type the result is undefined, because the quotient is
converted to a 32-bit integer before it is limited.  Here `2^24` is converted to 8 bits with 7 fractional bits; infinities and NaN are the
same. -/
theorem c92_overflow_violated : ∃ (src : Tensor) (dst : QTensor), dst.Typed ∧ dst.t.Valid (Buf.ofList [0]) ∧
    chkConvertAny (.f src) (.q dst) = some .ok ∧ dst.zpOf [0] = 0 ∧ dst.stepOf [0] = 1 / 128 ∧
    ∀ b ∈ [0x4b800000, 0xcc000001, 0x7f800000, 0x7fc00000], src.Valid (Buf.ofList [b]) ∧
      (hlpConvertAny .up (Buf.ofList [b]) (.f src) (.q dst) (Buf.ofList [0])).isNone := by
  refine ⟨{ dims := [⟨1, 1⟩], cap := 4, es := 4 }, { t := { dims := [⟨1, 1⟩], cap := 1, es := 1 }, ty := .fx8, fx := 7 },
    ⟨by decide, by decide⟩, ⟨by decide, by decide, by decide, by decide⟩, by decide, by decide, by decide +kernel, ?_⟩
  intro b hb
  refine ⟨⟨by decide, by decide, by decide, ?_⟩, ?_⟩
  · simp only [List.mem_cons, List.not_mem_nil, or_false] at hb
    rcases hb with rfl | rfl | rfl | rfl <;> decide
  · simp only [List.mem_cons, List.not_mem_nil, or_false] at hb
    rcases hb with rfl | rfl | rfl | rfl <;> decide +kernel

/-! ## Round trip -/

/-- C93: converting an 8- or 16-bit tensor to floating point and back gives the original elements, if all
elements are in the range of single precision. -/
theorem c93_round_trip (m : Rnd) (mem d1 d2 : Buf) (src dst : QTensor) (mid : Tensor) (vs : src.t.Valid mem) (vm : mid.Valid d1)
    (vd : dst.t.Valid d2) (ht : src.Typed) (hty : dst.ty = src.ty) (hfx : dst.fx = src.fx) (hqq : dst.q = src.q)
    (hc1 : chkConvertAny (.q src) (.f mid) = some .ok) (hc2 : chkConvertAny (.f mid) (.q dst) = some .ok) (hw : src.ty ≠ .sa32)
    (hx : src.t.Holds mem src.ty.width) (hr : ∀ is, InShape src.t.shape is → src.stepOf is ≤ maxFloat ∧ |(mem.get (src.t.addr is) - src.zpOf is) * src.stepOf is| ≤ maxFloat) :
    ∃ d1' d2', hlpConvertAny m mem (.q src) (.f mid) d1 = some (.ok, d1') ∧ hlpConvertAny m d1' (.f mid) (.q dst) d2 = some (.ok, d2') ∧
      dst.t.Writes (fun is => mem.get (src.t.addr is)) d2 d2' := by
  obtain ⟨hsh1, c1, -⟩ := chkConvertAny_shape hc1
  obtain ⟨hsh2, -, c2⟩ := chkConvertAny_shape hc2
  have hsh1 : src.t.shape = mid.shape := hsh1
  have hsh2 : mid.shape = dst.t.shape := hsh2
  have hq1 := (chkQTensor_ok c1).2
  have hq2 := (chkQTensor_ok c2).2
  have htd : dst.Typed := ⟨by rw [hqq]; exact ht.q, by rw [hfx]; exact ht.fx⟩
  obtain ⟨d1', val, h1, h2, h3⟩ := dequant_run mem d1 src mid vs vm m hc1
  have hax : dst.axis = src.axis := by unfold QTensor.axis; rw [hty, hqq]
  have hstep : ∀ is, dst.stepOf is = src.stepOf is := by
    intro is; unfold QTensor.stepOf QTensor.scale QTensor.frac; rw [hax, hty, hfx, hqq]
  have hzp : ∀ is, dst.zpOf is = src.zpOf is := by
    intro is; unfold QTensor.zpOf QTensor.zp; rw [hax, hty, hqq]
  have vm' : mid.Valid d1' := ⟨vm.typed, vm.small, vm.accepted, by have := vm.fits; unfold Tensor.Fits at *; rw [h2.size]; exact this⟩
  have key : ∀ is, InShape dst.t.shape is → quantVal m dst (paramIdx (floatAxis dst) is) (d1'.get (mid.addr is)) = some (mem.get (src.t.addr is)) := by
    intro is hi2
    have him : InShape mid.shape is := by rw [hsh2]; exact hi2
    have hi : InShape src.t.shape is := by rw [hsh1]; exact him
    obtain ⟨s, f, z, e1, e2, e3, p1, -, p3, p4, p5⟩ := param_ok ht hq1 hi
    have hri := hr is hi
    rw [p4, p5] at hri
    have hxr := hx is hi
    rw [h2.elem is him, h3]
    generalize mem.get (src.t.addr is) = x at *
    have hx16 : InRange 16 x := by
      have b1 := hxr.1
      have b2 := hxr.2
      revert b1 b2 hw
      cases src.ty <;> simp only [ElT.width, Spec.hi, lo] <;> intro hw b1 b2
      · constructor <;> simp only [Spec.hi, lo] <;> omega
      · exact ⟨b1, b2⟩
      · constructor <;> simp only [Spec.hi, lo] <;> omega
      · exact absurd rfl hw
    have x1 := hx16.1
    have x2 := hx16.2
    have z1 := p3.1
    have z2 := p3.2
    simp only [Spec.hi, lo] at x1 x2 z1 z2
    have hn : |((x - z : Int) : ℚ)| ≤ 2 ^ 16 := by
      have : |x - z| ≤ 2 ^ 16 := by rw [abs_le]; constructor <;> omega
      exact_mod_cast this
    have hS := scaleVal_pos (f := f) p1.pos
    have hSl : (2 : ℚ) ^ (-127 : Int) ≤ scaleVal s f := by
      unfold scaleVal
      have : (1 : ℚ) ≤ s := by exact_mod_cast p1.pos
      have h := two_le (a := -127) (b := -f) (by have := p1.f8; omega)
      have h2 := two_pos' (-f)
      nlinarith
    have hP : |((x - z : Int) : ℚ) * scaleVal s f| ≤ maxFloat := by push_cast; exact hri.2
    have hdq := (dequantVal_nearest (a := src) (k := paramIdx (floatAxis src) is) hx16 (by rw [e3]; exact p3) (by rw [e1, e2]; exact p1)
      (by rw [e1, e2]; exact hri.1) (by rw [e1, e2, e3]; exact hP)).2
    rw [e1, e2, e3] at hdq
    have herr := fl_err (((x - z : Int) : ℚ) * scaleVal s f)
    set n : ℚ := ((x - z : Int) : ℚ) with hnd
    have hrel : |fl (n * scaleVal s f) / scaleVal s f - n| ≤ 1 / 2 ^ 7 := by
      have e : fl (n * scaleVal s f) / scaleVal s f - n = (fl (n * scaleVal s f) - n * scaleVal s f) / scaleVal s f := by
        rw [sub_div, mul_div_cancel_right₀ _ hS.ne']
      rw [e, abs_div, abs_of_pos hS, div_le_iff₀ hS]
      refine le_trans herr ?_
      rw [abs_mul, abs_of_pos hS]
      have h150 : (1 : ℚ) / 2 ^ 150 ≤ scaleVal s f / 2 ^ 23 := by
        rw [le_div_iff₀ (by positivity)]
        refine le_trans ?_ hSl
        norm_num
      have : |n| * scaleVal s f / 2 ^ 24 ≤ 2 ^ 16 * scaleVal s f / 2 ^ 24 := by gcongr
      linarith
    have habs : |fl (n * scaleVal s f) / scaleVal s f| ≤ 2 ^ 16 + 1 / 2 ^ 7 := by
      have := abs_sub_abs_le_abs_sub (fl (n * scaleVal s f) / scaleVal s f) n
      linarith
    obtain ⟨t, t1, t2⟩ := quantVal_near m htd hq2 hi2 hdq (by rw [hstep, p5]; linarith)
    rw [t1, hzp, p4]
    rw [hstep, p5] at t2
    have htn : t = x - z := by
      have h3 := abs_sub_le (t : ℚ) (fl (n * scaleVal s f) / scaleVal s f) n
      have h4 : |(t : ℚ) - n| < 1 := by linarith
      rw [hnd] at h4
      have h5 : |t - (x - z)| < 1 := by exact_mod_cast h4
      have := Int.abs_lt_one_iff.1 h5
      omega
    rw [htn, show x - z + z = x by omega, hty, clamp_of_inRange hxr]
  obtain ⟨d2', g1, g2⟩ := quant_run m d1' d2 mid dst vm' vd hc2 (fun is => mem.get (src.t.addr is)) key
  exact ⟨d1', d2', h1, g1, g2⟩

/-! ## Examples -/

/-- `SA_8` with a scale per column (100/128 and 25/512) and zero points 3 and -4 to floating point: 7.8125, 0, 96.875, 6.34765625. -/
example : let s : QTensor := { t := { dims := [⟨2, 2⟩, ⟨2, 1⟩], cap := 4, es := 1 }, ty := .sa8, q := ⟨1, [3, -4], [100, 25], [7, 9]⟩ }
    let d : Tensor := { dims := [⟨2, 3⟩, ⟨2, 1⟩], cap := 20, es := 4, base := 1 }
    let mem := Buf.ofList [13, -4, 127, 126]
    s.Typed ∧ s.t.Valid mem ∧ d.Valid (Buf.ofList [0, 0, 0, 7, 0, 0]) ∧ chkConvertAny (.q s) (.f d) = some .ok ∧ s.t.Holds mem 8 ∧
    s.zpOf [0, 1] = -4 ∧ s.stepOf [0, 1] = 25 / 512 ∧
    (hlpConvertAny .up mem (.q s) (.f d) (Buf.ofList [0, 0, 0, 7, 0, 0])).map (fun r => (r.1, r.2.toList)) =
      some (.ok, [0, 0x40fa0000, 0, 7, 0x42c1c000, 0x40cb2000]) ∧
    f32val 0x40fa0000 = some (125 / 16) ∧ f32val 0x42c1c000 = some (775 / 8) ∧ f32val 0x40cb2000 = some (1625 / 256) :=
  ⟨⟨by decide, by decide⟩, ⟨by decide, by decide, by decide, by decide⟩, ⟨by decide, by decide, by decide, by decide⟩, by decide,
    holds_ofList (by decide) _, by decide, by decide +kernel, by decide +kernel, by decide +kernel, by decide +kernel, by decide +kernel⟩

/-- And back: the elements are restored.  From floating point: 10, -0.5, 1000 (limited), 0.0244140625 (half of a step). -/
example : let s : QTensor := { t := { dims := [⟨2, 2⟩, ⟨2, 1⟩], cap := 4, es := 1 }, ty := .sa8, q := ⟨1, [3, -4], [100, 25], [7, 9]⟩ }
    let d : Tensor := { dims := [⟨2, 3⟩, ⟨2, 1⟩], cap := 20, es := 4, base := 1 }
    let mem := Buf.ofList [0, 0x40fa0000, 0, 7, 0x42c1c000, 0x40cb2000]
    let mem' := Buf.ofList [0, 0x41200000, 0xbf000000, 7, 0x447a0000, 0x3cc80000]
    d.Valid mem ∧ s.t.Valid (Buf.ofList [0, 0, 0, 0]) ∧ chkConvertAny (.f d) (.q s) = some .ok ∧
    (hlpConvertAny .up mem (.f d) (.q s) (Buf.ofList [0, 0, 0, 0])).map (fun r => (r.1, r.2.toList)) = some (.ok, [13, -4, 127, 126]) ∧
    [0x41200000, 0xbf000000, 0x447a0000, 0x3cc80000].map f32val = [some 10, some (-1 / 2), some 1000, some (25 / 1024)] ∧
    (hlpConvertAny .up mem' (.f d) (.q s) (Buf.ofList [0, 0, 0, 0])).map (fun r => (r.1, r.2.toList)) = some (.ok, [16, -14, 127, -3]) :=
  ⟨⟨by decide, by decide, by decide, by decide⟩, ⟨by decide, by decide, by decide, by decide⟩, by decide, by decide +kernel, by decide +kernel,
    by decide +kernel⟩

/-- `SA_32`. -/
example : let s : QTensor := { t := { dims := [⟨2, 1⟩], cap := 8, es := 4 }, ty := .sa32, q := ⟨-1, [5], [3], [4]⟩ }
    let d : Tensor := { dims := [⟨2, 1⟩], cap := 8, es := 4 }
    let mem := Buf.ofList [123456789, -5]
    s.Typed ∧ s.t.Valid mem ∧ d.Valid (Buf.ofList [0, 0]) ∧ chkConvertAny (.q s) (.f d) = some .ok ∧ s.t.Holds mem 32 ∧
    InRange 32 (123456789 - s.zpOf [0]) ∧ s.stepOf [0] = 3 / 16 ∧
    (hlpConvertAny .up mem (.q s) (.f d) (Buf.ofList [0, 0])).map (fun r => r.2.toList.map f32val) = some [some 23148148, some (-15 / 8)] :=
  ⟨⟨by decide, by decide⟩, ⟨by decide, by decide, by decide, by decide⟩, ⟨by decide, by decide, by decide, by decide⟩, by decide,
    holds_ofList (by decide) _, by decide, by decide +kernel, by decide +kernel⟩

/-- Copy. -/
example : let s : Tensor := { dims := [⟨2, 1⟩], cap := 8, es := 4 }
    s.Valid (Buf.ofList [1, 2]) ∧ chkConvertAny (.f s) (.f s) = some .ok ∧
    (hlpConvertAny .up (Buf.ofList [0x7fc00000, 3]) (.f s) (.f s) (Buf.ofList [0, 0])).map (fun r => r.2.toList) = some [0x7fc00000, 3] :=
  ⟨⟨by decide, by decide, by decide, by decide⟩, by decide, by decide +kernel⟩

end Mli
