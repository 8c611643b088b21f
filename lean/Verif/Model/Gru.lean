import Verif.Model.Lstm

/-! # Model of the GRU cell (`lib/src/kernels/common/impl/mli_krn_gru_cell_ref.h`) -/

namespace Mli

open Spec (lo hi InRange Rnd)

/-- mli_krn_gru_cell_ref.h:138, 142: address of the bias of the new gate.  The status of `mli_hlp_create_subtensor` is ignored: on a failure the
descriptor stays uninitialised (no result here). -/
def CellArgs.newBias (a : CellArgs) : Option Int :=
  (createSubtensor a.tb { offs := [2, 0], sizes := [1, a.tb.shape.getD 1 0], rank := 2 }).bind fun r =>
    if r.1 ≠ .ok then none else some r.2.base

/-- mli_krn_gru_cell_ref.h:182-190: the hidden state, at address `p`. -/
def CellArgs.hidT (a : CellArgs) (p : Int) : Tensor :=
  { dims := [⟨1, a.tprev.shape.getD 0 0⟩, ⟨a.tprev.shape.getD 0 0, 1⟩], base := p, cap := a.tprev.cap, es := a.tin.es }

/-- The functions of a step that depend on the element format: activations; products of the reset gate with the hidden state and of the hidden
state with the update gate (in the first step or later); one minus the update gate; product of the new gate with that; sum for the output. -/
structure GruFn where
  sigm : Kernel1
  tanh : Kernel1
  mulR : Bool → Int → Int → Int
  mulH : Bool → Int → Int → Int
  subU : Int → Int
  mulN : Int → Int → Int
  addO : Bool → Int → Int → Int

/-- mli_krn_eltwise_ref.h:385-421 with 147-180: `eltwise_prepare_and_run` with `shape_1d` for a first operand of one element, in place.  (With
one element in the second operand too, both are taken as scalars and the same value is written.) -/
def eltOne (f : Int → Int) (t : Tensor) (d : Buf) : Option Buf :=
  forRange ((t.shape.getLast?).getD 0).toNat (fun (i : Nat) d => (d.rd (t.base + i)).bind fun y => d.wr (t.base + i) (f y)) d

/-- mli_krn_gru_cell_ref.h:207-316: one time step.  The gates are update (0), reset (1) and new (2); the dense part of the new gate is a separate
call of `rnn_dense_op` (247-266) on the input and the product of reset gate and hidden state. -/
def gruStep (D : CellDense) (F : GruFn) (a : CellArgs) (s : CellSt) : Option CellSt :=
  (a.gate 0).bind fun gu => (a.gate 1).bind fun gr => (a.gate 2).bind fun gn => a.newBias.bind fun bp =>
  (rnnStacked D a s.first s.xp s.hp 2 s.mem).bind fun d =>
  (runAct F.sigm gu gu d).bind fun d =>
  (runAct F.sigm gr gr d).bind fun d =>
  (elt1D (F.mulR s.first) gr s.hp gr.base d).bind fun d =>
  (elt1D (F.mulH s.first) (a.hidT s.hp) gu.base s.op d).bind fun d =>
  (eltOne F.subU gu d).bind fun d =>
  (rnnDenseMem D.aw (cellIns D a s.first s.xp gr.base 2) D.biasAdd D.store a.bias bp gn.base a.n d).bind fun d =>
  (runAct F.tanh gn gn d).bind fun d =>
  (elt1D F.mulN gn gu.base gn.base d).bind fun d =>
  (elt1D (F.addO s.first) gn s.op s.op d).map fun d => a.next s d

/-- mli_krn_gru_cell_ref.h:207-316: the loop over the time steps. -/
def gruRun (D : CellDense) (F : GruFn) (a : CellArgs) (mem : Buf) : Option CellSt :=
  forRange a.seq.toNat (fun _ s => gruStep D F a s) (a.start mem)

/-- mli_krn_gru_cell_ref.h:93-95: fractional bits of the intermediate tensor. -/
def CellFx.irGru (f : CellFx) : Int := min 11 (f.fi + f.fwi)

/-- mli_krn_gru_cell_ref.h:216-293 for 16-bit fixed point: the activations leave 15 fractional bits, "one" is the largest value. -/
def gruFnFx (m : Rnd) (f : CellFx) : GruFn :=
  { sigm := krnActivationFx m sigmoidLut 16 f.irGru
    tanh := krnActivationFx m tanhLut 16 f.irGru
    mulR := fun first => eltFx m 16 .mul (eltParamsFx 16 .mul 15 (if first then f.fh else f.fo) (if first then f.fh else f.fo))
    mulH := fun first => eltFx m 16 .mul (eltParamsFx 16 .mul (if first then f.fh else f.fo) 15 (if first then f.fh else f.fo))
    subU := eltFx m 16 .sub (eltParamsFx 16 .sub 15 15 15) 32767
    mulN := eltFx m 16 .mul (eltParamsFx 16 .mul 15 15 f.fo)
    addO := fun first => eltFx m 16 .add (eltParamsFx 16 .add f.fo (if first then f.fh else f.fo) f.fo) }

/-- private/src/mli_check.cc:2524-2580 `mli_chk_gru_cell_fx16`, `_fx16_fx8_fx8`. -/
def chkGruFx (f : CellFx) (a : CellArgs) : Option Status :=
  (chkCell 3 a []).bind fun s =>
    if s ≠ .ok then some s else if ¬ f.fb ≤ f.fi + f.fwi then some .incompatibleTensors else some .ok

/-- kernels/common/mli_krn_gru_cell.cc:33-80 `mli_krn_gru_cell_fx16` (`aw = 64`) and `_fx16_fx8_fx8` (`aw = 32`) with
mli_krn_gru_cell_ref.h:44-330: status, memory and output tensor on return. -/
def krnGruFx (m : Rnd) (aw : Nat) (f : CellFx) (a : CellArgs) (mem : Buf) : Option (Status × Buf × Tensor) :=
  (chkGruFx f a).bind fun s =>
    if s ≠ .ok then some (s, mem, a.tout)
    else (gruRun (f.dense m aw f.irGru) (gruFnFx m f) a mem).map fun s => (.ok, s.mem, a.outDesc)

/-- mli_krn_gru_cell_ref.h:85-88: quantization of the intermediate tensor. -/
def gruIr : SaQ := ⟨-1, [0], [21], [9]⟩

/-- mli_krn_gru_cell_ref.h:216-293 for 8-bit elements: `qh` is the format of the previous output, `qo` that of the output. -/
def gruFnSa (m : Rnd) (qh qo : SaParams) : GruFn :=
  { sigm := krnActivationSa m sigmoidLut 0 21 9 (-128) 8
    tanh := krnActivationSa m tanhLut 0 21 9 0 7
    mulR := fun first => if first then eltSa m .mul (eltParamsSa m .mul saSigm qh qh) else eltSa m .mul (eltParamsSa m .mul saSigm qo qo)
    mulH := fun first => if first then eltSa m .mul (eltParamsSa m .mul qh saSigm qh) else eltSa m .mul (eltParamsSa m .mul qo saSigm qo)
    subU := eltSa m .sub (eltParamsSa m .sub saSigm saSigm saSigm) 127
    mulN := eltSa m .mul (eltParamsSa m .mul saTanh saSigm qo)
    addO := fun first => if first then eltSa m .add (eltParamsSa m .add qo qh qo) else eltSa m .add (eltParamsSa m .add qo qo qo) }

/-- mli_krn_gru_cell_ref.h:34-42, 252-256 `inc_scales_for_new_gate`: the scales of the weights for the three gates.  With scales per gate the
pointers are moved by two; with a single scale the union holds the values themselves, and the pointer arithmetic adds 4 to the scale (two times
the size of `int16_t`) and 2 to the number of fractional bits.  Simplified: little-endian, the values in the low bytes of the pointer. -/
def gruW (w : SaQ) : SaQ :=
  if w.dim < 0 then
    { dim := 0, zp := [w.zpAt 0, w.zpAt 0, w.zpAt 0], scale := [w.scaleAt 0, w.scaleAt 0, wrap 16 (w.scaleAt 0 + 4)]
      frac := [w.fracAt 0, w.fracAt 0, wrap 8 (w.fracAt 0 + 2)] }
  else w

/-- private/src/mli_check.cc:2582-2640 `mli_chk_gru_cell_sa8_sa8_sa32`. -/
def chkGruSa (m : Rnd) (q : CellSa) (a : CellArgs) : Option Status :=
  (chkCell 3 a []).bind fun s => if s ≠ .ok then some s else chkCellSaQ m q a []

/-- kernels/common/mli_krn_gru_cell.cc:82-105 `mli_krn_gru_cell_sa8_sa8_sa32`.  A quantized dimension of the weights below -1 is accepted, but
the scales are then read beyond the single value (mli_krn_rnn_dense_op_ref.h:45-50): no result. -/
def krnGruSa (m : Rnd) (full : Bool) (q : CellSa) (a : CellArgs) (mem : Buf) : Option (Status × Buf × Tensor) :=
  (chkGruSa m q a).bind fun s =>
    if s ≠ .ok then some (s, mem, a.tout)
    else if q.qwi.dim < -1 ∨ q.qwo.dim < -1 then none
    else (CellSa.dense m full { q with qwi := gruW q.qwi, qwo := gruW q.qwo } gruIr).bind fun D =>
      (gruRun D (gruFnSa m q.qh.params q.qo.params) a mem).map fun s => (.ok, s.mem, a.outDesc)

end Mli
