import Verif.Model.Rnn
import Verif.Model.Lut
import Verif.Model.Eltwise
import Verif.Model.Permute
import Verif.Spec.Rnn

/-!
# Common parts of the recurrent cells (`lib/src/kernels/common/impl/mli_krn_lstm_cell_ref.h`, `mli_krn_gru_cell_ref.h`)

All elements of the type of the input (input, previous output, cell, output, scratch buffer) are in one memory, so that the tensors may share
elements; weights and bias are in buffers of their own.  Pointers are element addresses.
-/

namespace Mli

open Spec (lo hi InRange Rnd)

/-- Arguments of a recurrent cell: input, previous output, weights of both, bias and output; address and capacity (bytes) of the scratch buffer
`cfg->scratch_data`; `cfg->direction` and `cfg->results`. -/
structure CellArgs where
  tin : Tensor
  tprev : Tensor
  twi : Tensor
  two : Tensor
  tb : Tensor
  tout : Tensor
  wi : Buf
  wo : Buf
  bias : Buf
  scr : Int
  scrCap : Int
  backward : Bool
  all : Bool

/-- mli_krn_lstm_cell_ref.h:53, mli_krn_gru_cell_ref.h: number of outputs. -/
def CellArgs.n (a : CellArgs) : Int := countElemNum a.tprev
/-- mli_krn_lstm_cell_ref.h:54: elements of one input. -/
def CellArgs.k (a : CellArgs) : Int := countElemNumPart a.tin 1
/-- mli_krn_lstm_cell_ref.h:56: length of the sequence. -/
def CellArgs.seq (a : CellArgs) : Int := a.tin.shape.getD 0 0

/-- mli_krn_lstm_cell_ref.h:67-75: the intermediate tensor in the scratch buffer. -/
def CellArgs.irT (a : CellArgs) : Tensor :=
  { dims := [⟨a.tb.shape.getD 0 0, a.tb.shape.getD 1 0⟩, ⟨a.tb.shape.getD 1 0, 1⟩], base := a.scr, cap := a.scrCap, es := a.tin.es }

/-- mli_krn_lstm_cell_ref.h:107-112: the sub-tensor of gate `g`.  The status of `mli_hlp_create_subtensor` is ignored: on a failure the
descriptor stays uninitialised (no result here). -/
def CellArgs.gate (a : CellArgs) (g : Nat) : Option Tensor :=
  (createSubtensor a.irT { offs := [g, 0], sizes := [1, a.tb.shape.getD 1 0], rank := 2 }).bind fun r =>
    if r.1 ≠ .ok then none else some r.2

/-- mli_krn_lstm_cell_ref.h:114-119: the output of one step, at address `op`; the capacity is not changed when the pointer is moved. -/
def CellArgs.outT (a : CellArgs) (op : Int) : Tensor := { dims := [⟨a.n, 1⟩], base := op, cap := a.tout.cap, es := a.tin.es }

/-- mli_krn_lstm_cell_ref.h:225-236: the output tensor on return. -/
def CellArgs.outDesc (a : CellArgs) : Tensor :=
  { a.tout with dims := [⟨if a.all then a.seq else 1, a.n⟩, ⟨a.n, 1⟩] }

/-- The quantization of the dense part: zero points of the two inputs (in the first step or later) and of their weights, requantization of the
accumulator of an input (first step?, gate, input), bias and conversion to the output type. -/
structure CellDense where
  aw : Nat
  zx : Bool → Nat → Int
  zw : Nat → Int
  req : Bool → Nat → Nat → Int → Int
  biasAdd : Int → Int
  store : Int → Int

/-- mli_krn_lstm_cell_ref.h:54, 60-62, 97-101 with mli_krn_rnn_dense_op_ref.h:89-94, 107-112: the inputs of gate `g`, at `xp` and `hp`. -/
def cellIns (D : CellDense) (a : CellArgs) (first : Bool) (xp hp : Int) (g : Nat) (src : Buf) : List RnnIn :=
  [{ src := src, p := xp, n := a.k, wts := a.wi, wp := a.twi.base + g * a.twi.strides.getD 0 0, ws := a.twi.strides.getD 1 0,
     zx := D.zx first 0, zw := D.zw 0, req := D.req first g 0 },
   { src := src, p := hp, n := a.n, wts := a.wo, wp := a.two.base + g * a.two.strides.getD 0 0, ws := a.two.strides.getD 1 0,
     zx := D.zx first 1, zw := D.zw 1, req := D.req first g 1 }]

/-- mli_krn_rnn_dense_op_ref.h:124-175 `rnn_dense_op`, with inputs in the memory that holds the output. -/
def rnnDenseMem (aw : Nat) (ins : Buf → List RnnIn) (biasAdd store : Int → Int) (bias : Buf) (bp op m : Int) (d : Buf) : Option Buf :=
  ((ins d).mapM (rnnAdditive aw)).bind fun others =>
  forRange m.toNat (fun (o : Nat) d =>
    (bias.rd (bp + o)).bind fun b =>
    (rnnSum aw o ((ins d).zip others) (biasAdd b) 0).bind fun r => d.wr (op + o) (store r)) d

/-- One gate of `rnn_dense_op_stacked` (mli_krn_rnn_dense_op_ref.h:101-115): weights, bias and output move by one gate each time. -/
def cellGate (D : CellDense) (a : CellArgs) (first : Bool) (xp hp : Int) (g : Nat) (d : Buf) : Option Buf :=
  rnnDenseMem D.aw (cellIns D a first xp hp g) D.biasAdd D.store a.bias (a.tb.base + g * a.tb.strides.getD 0 0)
    (a.scr + g * a.tb.shape.getD 1 0) (countElemNumPart a.tb 1) d

/-- mli_krn_rnn_dense_op_ref.h:68-121 `rnn_dense_op_stacked`. -/
def rnnStacked (D : CellDense) (a : CellArgs) (first : Bool) (xp hp : Int) (gates : Nat) (d : Buf) : Option Buf :=
  forRange gates (cellGate D a first xp hp) d

/-- A kernel with one input and one output. -/
abbrev Kernel1 := Tensor → Tensor → Buf → Option (Status × Buf)

/-- mli_krn_lstm_cell_ref.h:135-154, 175-200: the status of the activations is ignored. -/
def runAct (f : Kernel1) (tin tout : Tensor) (d : Buf) : Option Buf := (f tin tout d).map (·.2)

/-- mli_krn_eltwise_ref.h:385-421 with 147-180: `eltwise_prepare_and_run` with `shape_1d` and `no_scalar`; the number of elements is that of the
first operand.  (The two reads of `mli_prv_tensor_data_val` before the loop have no effect.) -/
def elt1D (f : Int → Int → Int) (t1 : Tensor) (p2 po : Int) (d : Buf) : Option Buf :=
  forRange ((t1.shape.getLast?).getD 0).toNat (fun (i : Nat) d =>
    (d.rd (t1.base + i)).bind fun x => (d.rd (p2 + i)).bind fun y => d.wr (po + i) (f x y)) d

/-- The state of the loop over the time steps: memory, `inputs_ptr[0]`, `inputs_ptr[1]`, the output pointer, and whether no step was done
(the quantization parameters of the recurrent input are those of the previous output in the first step and those of the output later). -/
structure CellSt where
  mem : Buf
  xp : Int
  hp : Int
  op : Int
  first : Bool

/-- mli_krn_lstm_cell_ref.h:61-65, 115: the state before the loop. -/
def CellArgs.start (a : CellArgs) (mem : Buf) : CellSt :=
  { mem := mem, xp := if a.backward then a.tin.base + (a.seq - 1) * a.tin.strides.getD 0 0 else a.tin.base, hp := a.tprev.base,
    op := a.tout.base, first := true }

/-- mli_krn_lstm_cell_ref.h:206-222: pointers for the next step. -/
def CellArgs.next (a : CellArgs) (s : CellSt) (d : Buf) : CellSt :=
  { mem := d, xp := if a.backward then s.xp - a.tin.strides.getD 0 0 else s.xp + a.tin.strides.getD 0 0, hp := s.op,
    op := if a.all then s.op + a.n else s.op, first := false }

/-- private/src/mli_check.cc:2278-2310 (LSTM), 2500-2530 (GRU): output, scratch buffer, strides and overlap.  The sizes are `uint32_t`
products. -/
def chkCellOut (gates : Int) (a : CellArgs) (cell : List Tensor) : Option Status :=
  (chkTensors [a.tout]).bind fun s =>
  if s ≠ .ok then some s
  else if ¬ (((if a.all then a.seq else 1) * a.n) % 2 ^ 32 * a.tout.es) % 2 ^ 32 ≤ a.tout.cap then some .badTensor
  else if ¬ ((gates * a.n) % 2 ^ 32 * a.tin.es) % 2 ^ 32 ≤ a.scrCap then some .badFuncCfg
  else if !(cell.all innerOne && innerOne a.tb && isContig a.tout) then some .incompatibleTensors
  else (containersNotOverlapped (a.tin.base * a.tin.es) a.tin.cap (a.scr * a.tin.es) a.scrCap).map fun ap =>
    if !ap then .incompatibleTensors else .ok

/-- private/src/mli_check.cc:2252-2276 (LSTM): weights, bias and cell. -/
def chkCellWeights (gates : Int) (a : CellArgs) (cell : List Tensor) : Option Status :=
  (chkTensors [a.twi, a.two]).bind fun s =>
  if s ≠ .ok then some s
  else if ¬ (a.twi.shape = [gates, a.k, a.n] ∧ a.two.shape = [gates, a.n, a.n]) then some .shapeMismatch
  else if !(innerOne a.twi && innerOne a.two) then some .incompatibleTensors
  else (chkTensors [a.tb]).bind fun s =>
    if s ≠ .ok then some s
    else if ¬ a.tb.shape = [gates, a.n] then some .shapeMismatch
    else (chkTensors cell).bind fun s =>
      if s ≠ .ok then some s
      else if ¬ ∀ c ∈ cell, c.shape = [a.n] then some .shapeMismatch
      else some .ok

/-- private/src/mli_check.cc:2210-2312 `mli_chk_lstm_cell` (`gates = 4`, one cell tensor) and `mli_chk_gru_cell` (`gates = 3`, none), for
tables made by the library, matching element types and non-null pointers. -/
def chkCell (gates : Int) (a : CellArgs) (cell : List Tensor) : Option Status :=
  (chkTensors [a.tin, a.tprev]).bind fun s =>
  if s ≠ .ok then some s
  else if ¬ (a.tin.dims.length = 2 ∧ a.tprev.dims.length = 1) then some .shapeMismatch
  else if !(isContig a.tin && innerOne a.tprev) then some .incompatibleTensors
  else (chkCellWeights gates a cell).bind fun s => if s ≠ .ok then some s else chkCellOut gates a cell

/-- mli_prv_quant_ref.h:92-101 `define_quant_params` for the two inputs: `ir` are the fractional bits of the intermediate tensor. -/
def CellFx.dense (m : Rnd) (aw : Nat) (f : CellFx) (ir : Int) : CellDense :=
  { aw := aw, zx := fun _ _ => 0, zw := fun _ => 0,
    req := fun first _ i => rnnReqFx m aw (if i = 0 then f.fi + f.fwi - ir else (if first then f.fh else f.fo) + f.fwo - ir)
    biasAdd := fun b => biasFx m aw (f.fi + f.fwi - f.fb) b 0
    store := rnnStoreFx aw ir }

/-- Quantization of a recurrent cell with 8-bit elements. -/
structure CellSa where
  qi : SaQ
  qh : SaQ
  qwi : SaQ
  qwo : SaQ
  qb : SaQ
  qc : SaQ := ⟨-1, [0], [1], [0]⟩
  qo : SaQ
deriving DecidableEq, Repr

/-- mli_prv_quant_ref.h:103-131 `define_quant_params` for the two inputs with the intermediate tensor `ir`, and
mli_krn_rnn_dense_op_ref.h:28-66: the scale of the weights of gate `g`. -/
def CellSa.dense (m : Rnd) (full : Bool) (q : CellSa) (ir : SaQ) : Option CellDense :=
  let ratio (x : SaQ) := inToOut m (x.scaleAt 0) (x.fracAt 0) (ir.scaleAt 0) (ir.fracAt 0)
  (ratio q.qi).bind fun ri => (ratio q.qh).bind fun rh => (ratio q.qo).map fun ro =>
    { aw := 32, zx := fun first i => if i = 0 then q.qi.zpAt 0 else if first then q.qh.zpAt 0 else q.qo.zpAt 0
      zw := fun i => if i = 0 then q.qwi.zpAt 0 else q.qwo.zpAt 0
      req := fun first g i => if i = 0 then rnnReqSa m full ri (q.qwi.scaleAt g) (q.qwi.fracAt g)
        else rnnReqSa m full (if first then rh else ro) (q.qwo.scaleAt g) (q.qwo.fracAt g)
      biasAdd := fun b => biasS8 full b 0
      store := rnnStoreSa m ir }

/-- private/src/mli_check.cc:2395-2430 (LSTM), 2600-2640 (GRU): the quantization parameters; `cell` is the cell tensor. -/
def chkCellSaQ (m : Rnd) (q : CellSa) (a : CellArgs) (cell : List Tensor) : Option Status :=
  if ¬ (q.qi.dim < 0 ∧ q.qo.dim < 0 ∧ q.qh.dim < 0 ∧ (cell ≠ [] → q.qc.dim < 0) ∧
      (if q.qwi.dim < 0 then q.qwo.dim < 0 ∧ q.qb.dim < 0 else q.qwi.dim = 0 ∧ q.qwo.dim = 0 ∧ q.qb.dim = 0)) then some .incompatibleTensors
  else if chkQuant a.tin q.qi 7 ≠ .ok then some (chkQuant a.tin q.qi 7)
  else if chkQuant a.tout q.qo 7 ≠ .ok then some (chkQuant a.tout q.qo 7)
  else if chkQuant a.tprev q.qh 7 ≠ .ok then some (chkQuant a.tprev q.qh 7)
  else if ¬ ∀ c ∈ cell, chkQuant c q.qc 7 = .ok then (cell.head?).map fun c => chkQuant c q.qc 7
  else if chkQuant a.twi q.qwi 0 ≠ .ok then some (chkQuant a.twi q.qwi 0)
  else if chkQuant a.two q.qwo 0 ≠ .ok then some (chkQuant a.two q.qwo 0)
  else if chkQuant a.tb q.qb 0 ≠ .ok then some (chkQuant a.tb q.qb 0)
  else chkBiasLoop m q.qi q.qwi q.qb (if 0 ≤ q.qwi.dim then (a.twi.shape.getD q.qwi.dim.toNat 0).toNat else 1) 0

end Mli
