import Verif.Model.RnnCell

/-! # Model of the LSTM cell (`lib/src/kernels/common/impl/mli_krn_lstm_cell_ref.h`) -/

namespace Mli

open Spec (lo hi InRange Rnd)

/-- The functions of a step that depend on the element format: activations of the gates, products and sum on the cell, activation of the
output (if any) and product for the output. -/
structure LstmFn where
  sigm : Kernel1
  tanh : Kernel1
  mulC : Int → Int → Int
  mulG : Int → Int → Int
  addC : Int → Int → Int
  act : Option Kernel1
  mulOut : Int → Int → Int

/-- mli_krn_lstm_cell_ref.h:121-223: one time step; `tc` is the cell tensor.  The gates are input (0), new information (1), forget (2) and
output (3). -/
def lstmStep (D : CellDense) (F : LstmFn) (a : CellArgs) (tc : Tensor) (s : CellSt) : Option CellSt :=
  (a.gate 0).bind fun gi => (a.gate 1).bind fun gg => (a.gate 2).bind fun gf => (a.gate 3).bind fun go =>
  (rnnStacked D a s.first s.xp s.hp 4 s.mem).bind fun d =>
  (runAct F.sigm gi gi d).bind fun d =>
  (runAct F.tanh gg gg d).bind fun d =>
  (runAct F.sigm gf gf d).bind fun d =>
  (runAct F.sigm go go d).bind fun d =>
  (elt1D F.mulC tc gf.base tc.base d).bind fun d =>
  (elt1D F.mulG gg gi.base gg.base d).bind fun d =>
  (elt1D F.addC tc gg.base tc.base d).bind fun d =>
  (match F.act with
    | .none => elt1D F.mulOut tc go.base s.op d
    | .some f => (runAct f tc (a.outT s.op) d).bind fun d => elt1D F.mulOut (a.outT s.op) go.base s.op d).map fun d =>
  a.next s d

/-- mli_krn_lstm_cell_ref.h:121-223: the loop over the time steps. -/
def lstmRun (D : CellDense) (F : LstmFn) (a : CellArgs) (tc : Tensor) (mem : Buf) : Option CellSt :=
  forRange a.seq.toNat (fun _ s => lstmStep D F a tc s) (a.start mem)

/-- mli_krn_lstm_cell_ref.h:86-90: fractional bits of the intermediate tensor. -/
def CellFx.irLstm (f : CellFx) : Int := min 10 (f.fi + f.fwi)

/-- mli_krn_lstm_cell_ref.h:130-204 for 16-bit fixed point: the activations leave 15 fractional bits. -/
def lstmFnFx (m : Rnd) (f : CellFx) (act : RnnAct) : LstmFn :=
  { sigm := krnActivationFx m sigmoidLut 16 f.irLstm
    tanh := krnActivationFx m tanhLut 16 f.irLstm
    mulC := eltFx m 16 .mul (eltParamsFx 16 .mul f.fc 15 f.fc)
    mulG := eltFx m 16 .mul (eltParamsFx 16 .mul 15 15 15)
    addC := eltFx m 16 .add (eltParamsFx 16 .add f.fc 15 f.fc)
    act := match act with
      | .none => .none
      | .sigm => some (krnActivationFx m sigmoidLut 16 f.fc)
      | .tanh => some (krnActivationFx m tanhLut 16 f.fc)
    mulOut := eltFx m 16 .mul (eltParamsFx 16 .mul (if act = .none then f.fc else 15) 15 f.fo) }

/-- private/src/mli_check.cc:2312-2370 `mli_chk_lstm_cell_fx16`, `_fx16_fx8_fx8`. -/
def chkLstmFx (f : CellFx) (a : CellArgs) (tc : Tensor) : Option Status :=
  (chkCell 4 a [tc]).bind fun s =>
    if s ≠ .ok then some s else if ¬ f.fb ≤ f.fi + f.fwi then some .incompatibleTensors else some .ok

/-- kernels/common/mli_krn_lstm_cell.cc:36-82 `mli_krn_lstm_cell_fx16` (`aw = 64`) and `_fx16_fx8_fx8` (`aw = 32`) with
mli_krn_lstm_cell_ref.h:34-237: status, memory and output tensor on return. -/
def krnLstmFx (m : Rnd) (aw : Nat) (f : CellFx) (act : RnnAct) (a : CellArgs) (tc : Tensor) (mem : Buf) : Option (Status × Buf × Tensor) :=
  (chkLstmFx f a tc).bind fun s =>
    if s ≠ .ok then some (s, mem, a.tout)
    else (lstmRun (f.dense m aw f.irLstm) (lstmFnFx m f act) a tc mem).map fun s => (.ok, s.mem, a.outDesc)

/-- mli_krn_lstm_cell_ref.h:77-85: quantization of the intermediate tensor. -/
def lstmIr : SaQ := ⟨-1, [0], [1], [4]⟩

/-- Output format of the 8-bit sigmoid (`mli_krn_sigm_sa8`). -/
def saSigm : SaParams := ⟨-128, 1, 8⟩
/-- Output format of the 8-bit hyperbolic tangent (`mli_krn_tanh_sa8`). -/
def saTanh : SaParams := ⟨0, 1, 7⟩

/-- mli_krn_lstm_cell_ref.h:130-204 for 8-bit elements. -/
def lstmFnSa (m : Rnd) (qc qo : SaParams) (act : RnnAct) : LstmFn :=
  { sigm := krnActivationSa m sigmoidLut 0 1 4 (-128) 8
    tanh := krnActivationSa m tanhLut 0 1 4 0 7
    mulC := eltSa m .mul (eltParamsSa m .mul qc saSigm qc)
    mulG := eltSa m .mul (eltParamsSa m .mul saTanh saSigm saTanh)
    addC := eltSa m .add (eltParamsSa m .add qc saTanh qc)
    act := match act with
      | .none => .none
      | .sigm => some (krnActivationSa m sigmoidLut qc.zp qc.scale qc.frac (-128) 8)
      | .tanh => some (krnActivationSa m tanhLut qc.zp qc.scale qc.frac 0 7)
    mulOut := match act with
      | .none => eltSa m .mul (eltParamsSa m .mul qc saSigm qo)
      | .sigm => eltSa m .mul (eltParamsSa m .mul saSigm saSigm qo)
      | .tanh => eltSa m .mul (eltParamsSa m .mul saTanh saSigm qo) }

/-- private/src/mli_check.cc:2372-2430 `mli_chk_lstm_cell_sa8_sa8_sa32`. -/
def chkLstmSa (m : Rnd) (q : CellSa) (a : CellArgs) (tc : Tensor) : Option Status :=
  (chkCell 4 a [tc]).bind fun s => if s ≠ .ok then some s else chkCellSaQ m q a [tc]

/-- kernels/common/mli_krn_lstm_cell.cc:84-105 `mli_krn_lstm_cell_sa8_sa8_sa32`.  A quantized dimension of the weights below -1 is accepted, but
the scales are then read beyond the single value (mli_krn_rnn_dense_op_ref.h:45-50): no result. -/
def krnLstmSa (m : Rnd) (full : Bool) (q : CellSa) (act : RnnAct) (a : CellArgs) (tc : Tensor) (mem : Buf) : Option (Status × Buf × Tensor) :=
  (chkLstmSa m q a tc).bind fun s =>
    if s ≠ .ok then some (s, mem, a.tout)
    else if q.qwi.dim < -1 ∨ q.qwo.dim < -1 then none
    else (q.dense m full lstmIr).bind fun D =>
      (lstmRun D (lstmFnSa m q.qc.params q.qo.params act) a tc mem).map fun s => (.ok, s.mem, a.outDesc)

end Mli
