import Verif.Props.ConvMore

/-!
# C36: 8-bit weights with more than 511 taps

The sum of a convolution fits the 32-bit accumulator if the weights of an output channel are small together, whatever the number of taps.
-/

namespace Mli

open Spec

theorem Adds.forRangeV {aw : Nat} (n : Nat) (f : Nat → Int → Option Int) (v T : Nat → Int)
    (h : ∀ i, i < n → Adds aw (f i) (v i) (T i)) :
    Adds aw (Mli.forRange n f) (∑ i ∈ Finset.range n, v i) (∑ i ∈ Finset.range n, T i) := by
  induction n with
  | zero => simpa [Mli.forRange] using Adds.id aw
  | succ n ih =>
    rw [Finset.sum_range_succ, Finset.sum_range_succ]
    exact (ih fun i hi => h i (by omega)).comp (h n (by omega))

theorem dotprod3D_addsV {aw : Nat} {src wts : Buf} {p q W H C ics irs ichs kcs krs kchs : Int} (hH : 0 < H)
    (X Y B : Nat → Nat → Nat → Int)
    (hx : ∀ c r k : Nat, c < C.toNat → r < H.toNat → k < W.toNat → src.rd (p + ichs * c + irs * r + ics * k) = some (X c r k))
    (hy : ∀ c r k : Nat, c < C.toNat → r < H.toNat → k < W.toNat → wts.rd (q + kchs * c + krs * r + kcs * k) = some (Y c r k))
    (hB : ∀ c r k : Nat, c < C.toNat → r < H.toNat → k < W.toNat → |X c r k * Y c r k| ≤ B c r k) :
    Adds aw (fun a => dotprod3D aw src wts p q a W H C ics irs ichs kcs krs kchs)
      (boxSum C.toNat H.toNat W.toNat fun c r k => X c r k * Y c r k) (boxSum C.toNat H.toNat W.toNat B) := by
  simp only [dotprod3D_eq _ _ _ _ _ _ _ _ _ _ _ _ _ _ _ hH]
  exact Adds.forRangeV _ (fun (c : Nat) => forRange H.toNat fun (r : Nat) => forRange W.toNat fun (k : Nat) a =>
      macStep aw src wts (p + ichs * c + irs * r + ics * k) (q + kchs * c + krs * r + kcs * k) a) _ _ fun c hc =>
    Adds.forRangeV _ (fun (r : Nat) => forRange W.toNat fun (k : Nat) a =>
      macStep aw src wts (p + ichs * c + irs * r + ics * k) (q + kchs * c + krs * r + kcs * k) a) _ _ fun r hr =>
    Adds.forRangeV _ (fun (k : Nat) a => macStep aw src wts (p + ichs * c + irs * r + ics * k) (q + kchs * c + krs * r + kcs * k) a) _ _ fun k hk =>
      macStep_adds (hx c r k hc hr hk) (hy c r k hc hr hk) (hB c r k hc hr hk)

/-- The sum of the absolute values of the weights `W[row][column][channel]`. -/
def Spec.absSum (kh kw ic : Int) (W : Int → Int → Int → Int) : Int :=
  ∑ i ∈ Finset.range kh.toNat, ∑ j ∈ Finset.range kw.toNat, ∑ c ∈ Finset.range ic.toNat, |W i j c|

theorem convSum_absSum (kh kw n ih iw : Int) (X W : Int → Int → Int → Int) (sh sw pt pl dh dw y x A : Int) (hA : 0 ≤ A)
    (hX : ∀ r q c, 0 ≤ r → r < ih → 0 ≤ q → q < iw → 0 ≤ c → c < n → |X r q c| ≤ A) :
    |convSum kh kw n (padded ih iw 0 X) W sh sw pt pl dh dw y x| ≤ A * absSum kh kw n W := by
  unfold convSum absSum
  rw [Finset.mul_sum]
  refine (Finset.abs_sum_le_sum_abs _ _).trans (Finset.sum_le_sum fun i _ => ?_)
  rw [Finset.mul_sum]
  refine (Finset.abs_sum_le_sum_abs _ _).trans (Finset.sum_le_sum fun j _ => ?_)
  rw [Finset.mul_sum]
  refine (Finset.abs_sum_le_sum_abs _ _).trans (Finset.sum_le_sum fun c hc => ?_)
  have hc' := Finset.mem_range.1 hc
  rw [abs_mul]
  refine mul_le_mul_of_nonneg_right ?_ (abs_nonneg _)
  unfold padded
  split
  · rename_i h; exact hX _ _ _ h.1 h.2.1 h.2.2.1 h.2.2.2 (by omega) (by omega)
  · simpa using hA

section
variable {tin tw : Tensor} {c : ConvCfg} {src wts : Buf} {ih iw ic kh kw kc kn : Dim}

/-- Without zero points: what is handed to the rounding and limiting step is the exact sum of the products. -/
theorem convBias_runV (T : ConvT tin tw c src wts ih iw ic kh kw kc kn) (aw : Nat)
    (hch : ic.shape = kc.shape) (post : Int → Int → Int → Int) (bias : Buf) (bptr bv : Int) {H W : Int} {y x oc : Nat}
    (hH : ∀ i, i < kh.shape → (tapCoord c.sh c.pt c.dh y i < H ↔ tapCoord c.sh c.pt c.dh y i < ih.shape))
    (hW : ∀ j, j < kw.shape → (tapCoord c.sw c.pl c.dw x j < W ↔ tapCoord c.sw c.pl c.dw x j < iw.shape))
    (hrow : ∃ i, 0 ≤ i ∧ i < kh.shape ∧ 0 ≤ tapCoord c.sh c.pt c.dh y i ∧ tapCoord c.sh c.pt c.dh y i < ih.shape)
    (hoc : (oc : Int) < kn.shape) (A : Int) (hA : 0 ≤ A)
    (hX : ∀ is, InShape tin.shape is → |src.get (tin.addr is)| ≤ A)
    (hfit : A * absSum kh.shape kw.shape ic.shape (wtElem wts tw oc) ≤ hi aw) (hb : bias.rd (bptr + oc) = some bv) :
    convBias { aw := aw } post src wts bias bptr c (inPrv tin ih iw ic H W) (wtPrv tw kh kw kc kn) y x oc =
      some (post oc bv (convSum kh.shape kw.shape ic.shape (padded ih.shape iw.shape 0 (inElem src tin))
        (wtElem wts tw oc) c.sh c.sw c.pt c.pl c.dh c.dw y x)) := by
  obtain ⟨t, b, l, r, h⟩ := convWin_isWin T hH hW
  unfold convBias convCore
  simp only []
  generalize hv : convWin c (inPrv tin ih iw ic H W) (wtPrv tw kh kw kc kn) y x = v at h
  have t0 := h.t0; have b0 := h.b0; have l0 := h.l0; have r0 := h.r0
  have hr := h.rows; have hcl := h.clmns
  have p1 := T.vw.shape_pos kh (by simp [T.dk])
  have p2 := T.vw.shape_pos kw (by simp [T.dk])
  have p3 := T.vw.shape_pos kc (by simp [T.dk])
  have q1 := T.vi.shape_pos ih (by simp [T.di])
  have q2 := T.vi.shape_pos iw (by simp [T.di])
  have e3 : ((ic.shape.toNat : Nat) : Int) = ic.shape := by omega
  have rpos : 0 < v.rows := by
    obtain ⟨i, i0, i1, hi⟩ := hrow
    have := (h.rowIn i i0 i1).2 hi
    omega
  have insI : ∀ cc i j : Nat, cc < ic.shape.toNat → i < v.rows.toNat → j < v.clmns.toNat →
      InShape tin.shape [tapCoord c.sh c.pt c.dh y (t + i), tapCoord c.sw c.pl c.dw x (l + j), (cc : Int)] := by
    intro cc i j hc hi hj
    simp only [Tensor.shape, T.di, List.map_cons, List.map_nil, InShape]
    exact ⟨(h.rowIn (t + i) (by omega) (by omega)).1 (by omega), (h.colIn (l + j) (by omega) (by omega)).1 (by omega), by omega, trivial⟩
  have A1 := dotprod3D_addsV (aw := aw) (src := src) (wts := wts) (p := v.inPtr) (q := v.wPtr + kn.stride * oc) (W := v.clmns)
    (H := v.rows) (C := ic.shape) (ics := iw.stride * c.dw) (irs := ih.stride * c.dh) (ichs := 1) (kcs := kw.stride) (krs := kh.stride)
    (kchs := kc.stride) rpos
    (fun cc i j => inElem src tin (tapCoord c.sh c.pt c.dh y (t + i)) (tapCoord c.sw c.pl c.dw x (l + j)) cc)
    (fun cc i j => wtElem wts tw oc (t + i) (l + j) cc) (fun cc i j => A * |wtElem wts tw oc (t + i) (l + j) cc|)
    (fun cc i j hc hi hj => h.inTap T hi hj (by omega))
    (fun cc i j hc hi hj => h.wtTap T hi hj (by omega) hoc)
    (fun cc i j hc hi hj => by rw [abs_mul]; exact mul_le_mul_of_nonneg_right (hX _ (insI cc i j hc hi hj)) (abs_nonneg _))
  -- the bound is a convolution too
  have hbd := h.sum T ic.shape.toNat (fun _ _ _ => A) (fun i j cc => |wtElem wts tw oc i j cc|)
  rw [e3] at hbd
  have hle := (le_abs_self _).trans (convSum_absSum kh.shape kw.shape ic.shape ih.shape iw.shape (fun _ _ _ => A) (fun i j cc => |wtElem wts tw oc i j cc|)
    c.sh c.sw c.pt c.pl c.dh c.dw y x A hA fun _ _ _ _ _ _ _ _ _ => by rw [abs_of_nonneg hA])
  have eabs : absSum kh.shape kw.shape ic.shape (fun i j cc => |wtElem wts tw oc i j cc|) = absSum kh.shape kw.shape ic.shape (wtElem wts tw oc) := by
    unfold absSum; simp only [abs_abs]
  rw [hbd, eabs] at hle
  have AA := A1.2 0
  have hlo := lo_eq aw; have hhi := hi_eq aw
  have AA := AA (by omega) (by omega)
  have i0 : ∀ a, inAdd3D { aw := aw } src v.inPtr a v.clmns v.rows (inPrv tin ih iw ic H W).ch (inPrv tin ih iw ic H W).col
      (inPrv tin ih iw ic H W).row 1 = some a := by
    intro a; unfold inAdd3D; rw [if_neg (by simp)]
  have w0 : ∀ a, wAdd3D { aw := aw } wts (v.wPtr + kn.stride * oc) a v.clmns v.rows ic.shape kw.stride kh.stride kc.stride = some a := by
    intro a; unfold wAdd3D; rw [if_neg (by simp)]
  have z0 : ∀ a, zpAdd { aw := aw } a (v.clmns * v.rows) = some a := by
    intro a; unfold zpAdd; rw [if_neg (by simp)]
  simp only [i0]
  simp only [inPrv, wtPrv]
  simp only [AA, Option.bind_some, w0, z0, hb, Option.map_some]
  have hs := h.sum T ic.shape.toNat (inElem src tin) (wtElem wts tw oc)
  rw [e3] at hs
  rw [hs, Int.zero_add]

end

/-- All elements of the output of an accepted convolution with bias. -/
theorem convBias_allV {ks : Int} {tin tw tb tout : Tensor} {c : ConvCfg} {src wts bias dst : Buf}
    {ih iw ic kh kw kc kn bn oh ow oc : Dim} {i o : Prv} {w : WPrv} {H W : Int}
    (R : ConvRun false ks tin tw tb tout c src wts bias ih iw ic kh kw kc kn bn oh ow oc i o w H W) (vo : tout.Valid dst)
    (aw : Nat) (post : Int → Int → Int → Int)
    (hmeet : RowsMeet ih.shape kh.shape oh.shape c) (A : Int) (hA : 0 ≤ A)
    (hX : ∀ is, InShape tin.shape is → |src.get (tin.addr is)| ≤ A)
    (hfit : ∀ k, 0 ≤ k → k < kn.shape → A * absSum kh.shape kw.shape ic.shape (wtElem wts tw k) ≤ hi aw) :
    ∃ dst' val, convLoop (convBias { aw := aw } post src wts bias tb.base c (inPrv tin ih iw ic H W) w) o o.ch dst = some dst' ∧
      tout.Writes val dst dst' ∧ ∀ y x k, InShape tout.shape [y, x, k] → val [y, x, k] =
        post k (bias.get (tb.addr [k])) (convSum kh.shape kw.shape ic.shape
          (padded ih.shape iw.shape 0 (inElem src tin)) (wtElem wts tw k) c.sh c.sw c.pt c.pl c.dh c.dw y x) := by
  obtain ⟨dst', h1, h2⟩ := convLoop_writes vo R.dout R.uo o.ch R.och
    (fun is => match is with
      | [y, x, k] => post k (bias.get (tb.addr [k])) (convSum kh.shape kw.shape ic.shape
          (padded ih.shape iw.shape 0 (inElem src tin)) (wtElem wts tw k) c.sh c.sw c.pt c.pl c.dh c.dw y x)
      | _ => 0) (convBias { aw := aw } post src wts bias tb.base c (inPrv tin ih iw ic H W) w) (by
      intro y x k hy hx hk
      rw [R.wv]
      have hk' : (k : Int) < kn.shape := by rw [← R.eo]; exact hk
      exact convBias_runV R.T aw (R.hch.2 rfl) post bias tb.base _ (R.rowH y hy) (R.colW x hx)
        (hmeet y (by omega) hy) hk' A hA hX (hfit k (by omega) hk') (R.hb k hk')) o R.ho
  exact ⟨dst', _, h1, h2, fun _ _ _ _ => rfl⟩

/-- **C36**, 16-bit input with 8-bit weights and bias, accumulated in 32 bits, for any number of taps: it is enough that the absolute values of the weights of
each output channel add up to at most 65535 (elements of the input have an absolute value of at most 2^15).  With 65536 the sum can overflow
(`c36_fx8_overflow_violated`: 512 weights of -128 and inputs of -32768).  Partial: with rounding up the output shift must not be between 17 and 31
(`c05_cast_up_violated`). -/
theorem c36_conv2d_fx16_fx8_weights_partial (m : Rnd) (ks : Int) (apart : Bool) (f : FxQ) (src wts bias dst : Buf)
    (tin tw tb tout : Tensor) (c : ConvCfg) (ih iw ic kh kw kn oh ow : Int)
    (A : ConvArgs tin tw tb tout c src wts bias dst 16 8 8)
    (hchk : chkConvFx false ks apart f tin tw tb c tout = some .ok)
    (si : tin.shape = [ih, iw, ic]) (sk : tw.shape = [kh, kw, ic, kn]) (so : tout.shape = [oh, ow, kn])
    (hmeet : RowsMeet ih kh oh c) (ht : ∀ k, 0 ≤ k → k < kn → absSum kh kw ic (wtElem wts tw k) ≤ 65535) (h1 : f.relu = .one → f.fo < 30)
    (hup : m = .up → f.fi + f.fw - f.fo ≤ 16 ∨ 32 ≤ f.fi + f.fw - f.fo) :
    ∃ dst' val, krnConvFx m 32 ks apart f src wts bias tin tw tb c tout dst = some (.ok, dst') ∧
      tout.Writes val dst dst' ∧ ∀ y x k, InShape tout.shape [y, x, k] →
        ∃ r, Scaled m (clamp 32 (convSum kh kw ic (padded ih iw 0 (inElem src tin)) (wtElem wts tw k)
              c.sh c.sw c.pt c.pl c.dh c.dw y x + clamp 32 (bias.get (tb.addr [k]) * 2 ^ (f.fi + f.fw - f.fb).toNat)))
            (f.fi + f.fw - f.fo) r ∧
          NearestIn (f.relu.Admissible 16 0 1 f.fo) (clamp 16 r) (val [y, x, k]) := by
  obtain ⟨f1, f2, hck⟩ := chkConvFx_ok hchk
  have hXr : ∀ is, InShape tin.shape is → |src.get (tin.addr is)| ≤ 2 ^ 15 := by
    intro is his
    obtain ⟨a, b⟩ := A.hi is his
    simp only [lo, hi] at a b
    rw [abs_le]; omega
  obtain ⟨ih', iw', ic', kh', kw', kc', kn', bn', oh', ow', oc', i, o, w, H, W, R⟩ := conv_setup hck A.hc A.vi A.vw A.vb
  simp only [Tensor.shape, R.T.di, R.T.dk, R.dout, List.map_cons, List.map_nil, List.cons.injEq, and_true] at si sk so
  obtain ⟨rfl, rfl, rfl⟩ := si
  obtain ⟨rfl, rfl, -, rfl⟩ := sk
  obtain ⟨rfl, rfl, -⟩ := so
  have hfit : ∀ k, 0 ≤ k → k < kn'.shape → 2 ^ 15 * absSum kh'.shape kw'.shape ic'.shape (wtElem wts tw k) ≤ 2 ^ 31 - 1 := by
    intro k k0 k1
    have := ht k k0 k1
    omega
  obtain ⟨dst', val, r1, r2, r3⟩ := convBias_allV R A.vo 32
    (fun _ b acc => castLimFx m 32 f (biasFx m 32 (f.fi + f.fw - f.fb) b acc)) hmeet (2 ^ 15) (by decide) hXr (fun k k0 k1 => (hfit k k0 k1).trans (by decide))
  refine ⟨dst', val, ?_, r2, ?_⟩
  · unfold krnConvFx
    simp only [hchk, Option.bind_eq_bind, Option.bind_some, ne_eq, not_true_eq_false, if_false, R.hi, R.ho, R.hw, R.adj, r1,
      Option.pure_def]
  · intro y x k hs
    have hk : 0 ≤ k ∧ k < kn'.shape := by
      simp only [Tensor.shape, R.dout, List.map_cons, List.map_nil, InShape, R.eo] at hs
      exact hs.2.2.1
    have hS := convSum_absSum kh'.shape kw'.shape ic'.shape ih'.shape iw'.shape (inElem src tin) (wtElem wts tw k) c.sh c.sw c.pt c.pl c.dh c.dw y x (2 ^ 15)
      (by decide) (fun r q cc a1 a2 b1 b2 c1 c2 => hXr [r, q, cc] (by
        simp only [Tensor.shape, R.T.di, List.map_cons, List.map_nil, InShape]
        exact ⟨⟨a1, a2⟩, ⟨b1, b2⟩, ⟨c1, c2⟩, trivial⟩))
    have hS := abs_le.1 (hS.trans (hfit k hk.1 hk.2))
    rw [r3 y x k hs, biasFx32 m (f.fi + f.fw - f.fb) (by omega) (A.hb [k] (R.bias_in hk)) ⟨by simp only [lo]; omega, by simp only [hi]; omega⟩]
    exact castLimFx_spec m 32 (by omega) f (clamp_inRange _ _) h1 (fun hm => (hup hm).elim (fun h => Or.inl (by omega)) (fun h => Or.inr (Or.inl (by omega))))

/-! A call with 600 taps: 600 weights of -109 (sum of absolute values 65400) and inputs of -32768. -/

def exIn600 : Tensor := { dims := [⟨1, 600⟩, ⟨1, 600⟩, ⟨600, 1⟩], cap := 1200, es := 2 }
def exWt600 : Tensor := { dims := [⟨1, 600⟩, ⟨1, 600⟩, ⟨600, 1⟩, ⟨1, 1⟩], cap := 600, es := 1 }
def exBias1 : Tensor := { dims := [⟨1, 1⟩], cap := 1, es := 1 }
def exSrc600 : Buf := { size := 600, get := fun _ => -32768 }
def exWts600 : Buf := { size := 600, get := fun _ => -109 }

theorem exArgs600 : ConvArgs exIn600 exWt600 exBias1 exOne { sh := 1, sw := 1 } exSrc600 exWts600 (Buf.ofList [5]) (Buf.ofList [99]) 16 8 8 :=
  ⟨⟨by decide, by decide, by decide, by decide⟩, ⟨by decide, by decide, by decide, by decide⟩, ⟨by decide, by decide, by decide, by decide⟩,
    ⟨by decide, by decide, by decide, by decide⟩, fun _ _ => show InRange 16 (-32768) by decide, fun _ _ => show InRange 8 (-109) by decide, holds_ofList (by decide) _, by decide⟩

theorem exAbs600 (k : Int) : absSum 1 1 600 (wtElem exWts600 exWt600 k) = 65400 := by
  have e : wtElem exWts600 exWt600 k = fun _ _ _ => -109 := rfl
  rw [e]
  simp [absSum]

/-- Hypotheses of `c36_conv2d_fx16_fx8_weights_partial` for more taps than `c36_conv2d_fx16_fx8_partial` admits. -/
example :
    let f : FxQ := { fi := 15, fw := 7, fb := 7, fo := 6, relu := .none }
    chkConvFx false 0 true f exIn600 exWt600 exBias1 { sh := 1, sw := 1 } exOne = some .ok ∧
    exIn600.shape = [1, 1, 600] ∧ exWt600.shape = [1, 1, 600, 1] ∧ exOne.shape = [1, 1, 1] ∧
    RowsMeet 1 1 1 { sh := 1, sw := 1 } ∧ (∀ k, 0 ≤ k → k < 1 → absSum 1 1 600 (wtElem exWts600 exWt600 k) ≤ 65535) :=
  ⟨by decide +kernel, by decide, by decide, by decide,
    c36_rows_meet (iw := 1) (kw := 1) (ow := 1) (by decide) (by decide) (by decide) (by decide), fun k _ _ => by rw [exAbs600]; decide⟩

end Mli
