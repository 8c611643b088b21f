import Verif.Spec.Arith
import Verif.Spec.Real
import Verif.Spec.Fc
import Verif.Spec.EltSa
import Verif.Spec.Scale

/-!
# One step of a recurrent cell

`X` is the input of the step, `H` the output of the step before, `C` the cell; `k` inputs, `n` outputs.
-/

namespace Mli

/-- Fractional bits of a recurrent cell with fixed-point elements: of the input, previous output, weights of both, bias, cell and output. -/
structure CellFx where
  fi : Int
  fh : Int
  fwi : Int
  fwo : Int
  fb : Int
  fc : Int := 0
  fo : Int
deriving DecidableEq, Repr

/-- The activation of the output of an LSTM cell. -/
inductive RnnAct
  | none | sigm | tanh
deriving DecidableEq, Repr

/-- The weights of a cell: `wi g i o` is that of input `i` for output `o` of gate `g`, `wo g i o` that of the previous output `i`. -/
structure CellW where
  wi : Nat → Int → Int → Int
  wo : Nat → Int → Int → Int
  b : Nat → Int → Int

namespace Spec

/-- `r` is within `e` of `y`. -/
def Near (e y : ℝ) (r : Int) : Prop := |(r : ℝ) - y| ≤ e

/-- `r` is the 16-bit product of `a` and `b`: `f1`, `f2` and `fo` are the fractional bits. -/
def ProdFx (m : Rnd) (f1 f2 fo a b r : Int) : Prop := ∃ q, Scaled m (a * b) (f1 + f2 - fo) q ∧ r = clamp 16 q

/-- `r` is the 16-bit sum of `a` and `b`. -/
def SumFx (m : Rnd) (f1 f2 fo a b r : Int) : Prop :=
  ∃ q, Scaled m (a * 2 ^ (max f1 f2 - f1).toNat + b * 2 ^ (max f1 f2 - f2).toNat) (max f1 f2 - fo) q ∧ r = clamp 16 q

/-- Output `o` of gate `g` before its activation, with `fr` fractional bits; `fh` are those of `H`. -/
def GateFx (m : Rnd) (f : CellFx) (fr fh k n : Int) (W : CellW) (X H : Int → Int) (g : Nat) (o v : Int) : Prop :=
  ∃ r0 r1, Scaled m (dotSum k X (fun i => W.wi g i o) + W.b g o * 2 ^ (f.fi + f.fwi - f.fb).toNat) (f.fi + f.fwi - fr) r0 ∧
    Scaled m (dotSum n H fun i => W.wo g i o) (fh + f.fwo - fr) r1 ∧ v = clamp 16 (r0 + r1)

/-- `y` is the activation of `c`, which has `fc` fractional bits. -/
def ActFx (act : RnnAct) (fc c y : Int) : Prop :=
  match act with
  | .none => y = c
  | .sigm => Near 2.7 (2 ^ 15 * Real.sigmoid (fxReal c fc)) y
  | .tanh => Near 4.4 (2 ^ 15 * Real.tanh (fxReal c fc)) y

/-- One step of an LSTM cell with 16-bit elements: gates 0 to 3 are the input gate, the new information, the forget gate and the output gate;
activations are accurate to a few units of `2^-15`, products and sum are rounded once. -/
def LstmFxStep (m : Rnd) (f : CellFx) (fr fh : Int) (act : RnnAct) (k n : Int) (W : CellW) (X H C H' C' : Int → Int) : Prop :=
  ∃ V : Nat → Int → Int, ∀ o, 0 ≤ o → o < n → (∀ g, g < 4 → GateFx m f fr fh k n W X H g o (V g o)) ∧ ∃ gi gg gf go p q y : Int,
    Near 2.7 (2 ^ 15 * Real.sigmoid (fxReal (V 0 o) fr)) gi ∧ Near 4.4 (2 ^ 15 * Real.tanh (fxReal (V 1 o) fr)) gg ∧
    Near 2.7 (2 ^ 15 * Real.sigmoid (fxReal (V 2 o) fr)) gf ∧ Near 2.7 (2 ^ 15 * Real.sigmoid (fxReal (V 3 o) fr)) go ∧
    ProdFx m f.fc 15 f.fc (C o) gf p ∧ ProdFx m 15 15 15 gg gi q ∧ SumFx m f.fc 15 f.fc p q (C' o) ∧
    ActFx act f.fc (C' o) y ∧ ProdFx m (if act = .none then f.fc else 15) 15 f.fo y go (H' o)

/-- One step of a GRU cell with 16-bit elements, the formats of `H` being that of `fh` fractional bits: gates 0 to 2 are the update gate, the reset
gate and the new information, which sees the product `R` of reset gate and `H`; the output is new information and `H`, weighted by one minus the
update gate and by the update gate ("one" is the largest number with 15 fractional bits). -/
def GruFxStep (m : Rnd) (f : CellFx) (fr fh k n : Int) (W : CellW) (X H H' : Int → Int) : Prop :=
  ∃ (V : Nat → Int → Int) (R : Int → Int), ∀ o, 0 ≤ o → o < n → GateFx m f fr fh k n W X H 0 o (V 0 o) ∧ GateFx m f fr fh k n W X H 1 o (V 1 o) ∧
    GateFx m f fr fh k n W X R 2 o (V 2 o) ∧ ∃ gu gr gn p q : Int,
    Near 2.7 (2 ^ 15 * Real.sigmoid (fxReal (V 0 o) fr)) gu ∧ Near 2.7 (2 ^ 15 * Real.sigmoid (fxReal (V 1 o) fr)) gr ∧
    Near 4.4 (2 ^ 15 * Real.tanh (fxReal (V 2 o) fr)) gn ∧
    ProdFx m 15 fh fh gr (H o) (R o) ∧ ProdFx m fh 15 fh (H o) gu p ∧ ProdFx m 15 15 f.fo gn (clamp 16 (32767 - gu)) q ∧
    SumFx m f.fo fh f.fo q p (H' o)

/-! ## 8-bit elements -/

/-- Format of 8-bit elements: zero point, scale and fractional bits of the scale. -/
structure SaFmt where
  zp : Int
  scale : Int
  frac : Int

/-- The number that element `a` stands for. -/
def SaFmt.real (q : SaFmt) (a : Int) : ℚ := saReal q.zp q.scale q.frac a
/-- The number between two elements. -/
def SaFmt.step (q : SaFmt) : ℚ := scaleVal q.scale q.frac
/-- `r` stands for `y`, limited to the range, up to `e` steps. -/
def SaFmt.Close (q : SaFmt) (e y : ℚ) (r : Int) : Prop := SaClose e q.zp q.scale q.frac y r

/-- Format of a sigmoid. -/
def fmtSigm : SaFmt := ⟨-128, 1, 8⟩
/-- Format of a hyperbolic tangent. -/
def fmtTanh : SaFmt := ⟨0, 1, 7⟩

/-- `y` is the sigmoid of `v`, which has format `q`. -/
def SigmSa (q : SaFmt) (v y : Int) : Prop := Near 0.53 (limitReal 8 (2 ^ 8 * Real.sigmoid (fxReal ((v - q.zp) * q.scale) q.frac) - 128)) y
/-- `y` is the hyperbolic tangent of `v`. -/
def TanhSa (q : SaFmt) (v y : Int) : Prop := Near 0.53 (limitReal 8 (2 ^ 7 * Real.tanh (fxReal ((v - q.zp) * q.scale) q.frac))) y

/-- Formats of a cell: input, output, cell, and the scales of the weights of every gate. -/
structure CellSaFmt where
  x : SaFmt
  o : SaFmt
  c : SaFmt
  wi : Nat → ℚ
  wo : Nat → ℚ

/-- Output `o` of gate `g` before its activation, in steps of size `ir`; `h` is the format of `H`. -/
def GateSa (full : Bool) (q : CellSaFmt) (ir : ℚ) (h : SaFmt) (k n : Int) (W : CellW) (X H : Int → Int) (g : Nat) (o v : Int) : Prop :=
  ∃ b', ∃ e0 e1 : ℚ, BiasFor full (W.b g o) b' ∧
    e0 = (dotSum k (fun i => X i - q.x.zp) (fun i => W.wi g i o) + b' : Int) * (q.x.step * q.wi g / ir) ∧
    e1 = (dotSum n (fun i => H i - h.zp) fun i => W.wo g i o) * (h.step * q.wo g / ir) ∧
    (|e0| ≤ 2 ^ 28 → |e1| ≤ 2 ^ 28 → |(v : ℚ) - limitQ (-128) 127 (e0 + e1)| ≤ 1 + (|e0| + |e1|) / 2 ^ 13)

/-- Format of the activated cell. -/
def actFmt (act : RnnAct) (c : SaFmt) : SaFmt :=
  match act with
  | .none => c
  | .sigm => fmtSigm
  | .tanh => fmtTanh

/-- `y` is the activation of `c`. -/
def ActSa (act : RnnAct) (q : SaFmt) (c y : Int) : Prop :=
  match act with
  | .none => y = c
  | .sigm => SigmSa q c y
  | .tanh => TanhSa q c y

/-- One step of an LSTM cell with 8-bit elements; the gates have steps of 1/16 before their activation. -/
def LstmSaStep (full : Bool) (q : CellSaFmt) (h : SaFmt) (act : RnnAct) (k n : Int) (W : CellW) (X H C H' C' : Int → Int) : Prop :=
  ∃ V : Nat → Int → Int, ∀ o, 0 ≤ o → o < n → (∀ g, g < 4 → GateSa full q (1 / 16) h k n W X H g o (V g o)) ∧ ∃ gi gg gf go p r y : Int,
    SigmSa ⟨0, 1, 4⟩ (V 0 o) gi ∧ TanhSa ⟨0, 1, 4⟩ (V 1 o) gg ∧ SigmSa ⟨0, 1, 4⟩ (V 2 o) gf ∧ SigmSa ⟨0, 1, 4⟩ (V 3 o) go ∧
    q.c.Close (3 / 5) (q.c.real (C o) * fmtSigm.real gf) p ∧ fmtTanh.Close (3 / 5) (fmtTanh.real gg * fmtSigm.real gi) r ∧
    q.c.Close (1 + (|q.c.real p / q.c.step| + |fmtTanh.real r / q.c.step|) / 8192) (q.c.real p + fmtTanh.real r) (C' o) ∧
    ActSa act q.c (C' o) y ∧ q.o.Close (3 / 5) ((actFmt act q.c).real y * fmtSigm.real go) (H' o)

/-- One step of a GRU cell with 8-bit elements, `h` being the format of `H`; the gates have steps of 21/512 before their activation.  "One" is the
largest number of the format of the sigmoid, 255/256. -/
def GruSaStep (full : Bool) (q : CellSaFmt) (h : SaFmt) (k n : Int) (W : CellW) (X H H' : Int → Int) : Prop :=
  ∃ (V : Nat → Int → Int) (R : Int → Int), ∀ o, 0 ≤ o → o < n → GateSa full q (21 / 512) h k n W X H 0 o (V 0 o) ∧
    GateSa full q (21 / 512) h k n W X H 1 o (V 1 o) ∧ GateSa full q (21 / 512) h k n W X R 2 o (V 2 o) ∧ ∃ gu gr gn u p r : Int,
    SigmSa ⟨0, 21, 9⟩ (V 0 o) gu ∧ SigmSa ⟨0, 21, 9⟩ (V 1 o) gr ∧ TanhSa ⟨0, 21, 9⟩ (V 2 o) gn ∧
    h.Close (3 / 5) (fmtSigm.real gr * h.real (H o)) (R o) ∧ h.Close (3 / 5) (h.real (H o) * fmtSigm.real gu) p ∧
    fmtSigm.real u = 255 / 256 - fmtSigm.real gu ∧ q.o.Close (3 / 5) (fmtTanh.real gn * fmtSigm.real u) r ∧
    q.o.Close (1 + (|q.o.real r / q.o.step| + |h.real p / q.o.step|) / 8192) (q.o.real r + h.real p) (H' o)

end Spec

end Mli
