import Verif.Model.HarW
import Verif.Model.HarLstm

/-!
# The LSTM layer of the human activity recognition example that is made of other kernels, with 8-bit weights

har_smartphone_model_fx.c:659-799 `user_lstm` of /repo as layer 3 calls it, configured for 16-bit data with 8-bit weights and biases
(`MODEL_FX_8W16D`; lines 879-880 select the dense kernel).
-/

namespace Mli

open Spec

/-- har_smartphone_model_fx.c:684-708: the weights and bias of gate `g`, with the first status that is not `MLI_STATUS_OK`. -/
def harPartW (g : Nat) : Option (Status × HarPart) :=
  (createSubtensor harGatesW { offs := [g, 0, 0], sizes := [1, 32, 32], rank := 2 }).bind fun i =>
  (createSubtensor harGatesW { offs := [g, 0, 0], sizes := [1, 32, 32], rank := 2 }).bind fun o =>
  (createSubtensor (harMatW 128 4 32) { offs := [g, 0], sizes := [1, 32], rank := 1 }).bind fun b =>
  some (if i.1 ≠ .ok then i.1 else if o.1 ≠ .ok then o.1 else b.1, ⟨i.2, o.2, b.2⟩)

/-- har_smartphone_model_fx.c:764-772: `rnn_dense` for gate `g`; 12 fractional bits (line 717).  (The gates are in an array of their own, apart from the
inputs, so the kernel may be given the memory before the call as its source.) -/
def harDenseW (m : Rnd) (W : HarWts) (p : HarPart) (ti tp : Tensor) (g : Nat) (mem : Buf) : Option (Status × Buf) :=
  krnRnnFx m 32 { fi := [15, 15], fw := [7, 7], fb := 6, fo := 12 } [⟨mem, ti, W.wi3, p.wi, true⟩, ⟨mem, tp, W.wo3, p.wo, true⟩] W.b3 p.b (harGate g) mem

/-- har_smartphone_model_fx.c:763-795: the calls of one step.  The kernels for activations set 15 fractional bits; L3_lstm_cell has 12 and the output 15. -/
def harStepW (m : Rnd) (W : HarWts) (p0 p1 p2 p3 : HarPart) (ti tp tO : Tensor) (mem : Buf) : Option (Status × Buf) :=
  harCalls
    [harDenseW m W p0 ti tp 0, harDenseW m W p1 ti tp 1, harDenseW m W p2 ti tp 2, harDenseW m W p3 ti tp 3,
      krnActivationFx m sigmoidLut 16 12 (harGate 0) (harGate 0), krnActivationFx m tanhLut 16 12 (harGate 1) (harGate 1),
      krnActivationFx m sigmoidLut 16 12 (harGate 2) (harGate 2), krnActivationFx m sigmoidLut 16 12 (harGate 3) (harGate 3),
      krnEltwiseFx m 16 .mul 15 12 12 ⟨harGate 2, 0⟩ ⟨harVec harCell 64 32, 0⟩ (harVec harCell 64 32),
      krnEltwiseFx m 16 .mul 15 15 15 ⟨harGate 0, 0⟩ ⟨harGate 1, 0⟩ (harGate 1),
      krnEltwiseFx m 16 .add 12 15 12 ⟨harVec harCell 64 32, 0⟩ ⟨harGate 1, 0⟩ (harVec harCell 64 32),
      krnActivationFx m tanhLut 16 12 (harVec harCell 64 32) (harGate 1),
      krnEltwiseFx m 16 .mul 15 15 15 ⟨harGate 1, 0⟩ ⟨harGate 3, 0⟩ tO] mem

/-- har_smartphone_model_fx.c:736-796: the loop over the samples, `k` of them left, the next one `t`; `tp` is step_prev_out. -/
def harUserLoopW (m : Rnd) (W : HarWts) (p0 p1 p2 p3 : HarPart) (tin tO : Tensor) : Nat → Nat → Tensor → Buf → Option (Status × Buf)
  | 0, _, _, mem => some (.ok, mem)
  | k + 1, t, tp, mem =>
    (createSubtensor tin { offs := [t, 0], sizes := [1, 32], rank := 1 }).bind fun i =>
      if i.1 ≠ .ok then some (i.1, mem)
      else (harStepW m W p0 p1 p2 p3 i.2 tp tO mem).bind fun r =>
        if r.1 ≠ .ok then some r else harUserLoopW m W p0 p1 p2 p3 tin tO k (t + 1) tO r.2

/-- har_smartphone_model_fx.c:659-799 `user_lstm` for the tensors of layer 3 (lines 135-169); the input is the output tensor of layer 2. -/
def harUserLstmW (m : Rnd) (W : HarWts) (tin : Tensor) (mem : Buf) : Option (Status × Buf × Tensor) :=
  (harPartW 0).bind fun p0 => if p0.1 ≠ .ok then some (p0.1, mem, harMat harY 8192 1 32) else
  (harPartW 1).bind fun p1 => if p1.1 ≠ .ok then some (p1.1, mem, harMat harY 8192 1 32) else
  (harPartW 2).bind fun p2 => if p2.1 ≠ .ok then some (p2.1, mem, harMat harY 8192 1 32) else
  (harPartW 3).bind fun p3 => if p3.1 ≠ .ok then some (p3.1, mem, harMat harY 8192 1 32) else
  (createSubtensor (harMat harY 8192 1 32) { offs := [0, 0], sizes := [1, 32], rank := 1 }).bind fun o =>
  if o.1 ≠ .ok then some (o.1, mem, harMat harY 8192 1 32) else
  (harUserLoopW m W p0.2 p1.2 p2.2 p3.2 tin o.2 128 0 (harVec harY 8192 32) mem).map fun r => (r.1, r.2, harMat harY 8192 1 32)

/-- har_smartphone_model_fx.c:476-515 with `CUSTOM_USER_LSTM_LAYER3`. -/
def harNetUserW (m : Rnd) (W : HarWts) (mem : Buf) : Option (List Status × Buf) := harNetWithW m W (harUserLstmW m W) mem

/-- har_smartphone_model_fx.c:476-515: conversion of the input and network.  `inp` holds the input, moved to y_mem_buf (lines 470-474), as floating-point
elements; `mem` the arrays as 16-bit elements.  (y_mem_buf is both; the conversion reads it before anything else is written to it.) -/
def harAppW (m : Rnd) (W : HarWts) (inp mem : Buf) : Option (List Status × Buf) :=
  (hlpConvertAny m inp (.f harFloat) (.q harInput) mem).bind fun r0 => (harNetUserW m W r0.2).map fun r => (r0.1 :: r.1, r.2)

end Mli
