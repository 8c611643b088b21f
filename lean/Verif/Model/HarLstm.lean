import Verif.Model.Har
import Verif.Model.Rnn
import Verif.Model.Lut
import Verif.Model.ConvertFloat

/-!
# The LSTM layer of the human activity recognition example that is made of other kernels

har_smartphone_model_fx.c:659-799 `user_lstm` of /repo as layer 3 calls it (`CUSTOM_USER_LSTM_LAYER3`, har_smartphone_model.h:78): 16-bit fixed point,
forward, results of the last step only.
-/

namespace Mli

open Spec

/-- Calls one after the other, each only if the ones before have succeeded (har_smartphone_model_fx.c:764-795). -/
def harCalls : List (Buf → Option (Status × Buf)) → Buf → Option (Status × Buf)
  | [], mem => some (.ok, mem)
  | c :: cs, mem => (c mem).bind fun r => if r.1 ≠ .ok then some r else harCalls cs r.2

/-- har_smartphone_model_fx.c:593-618, 754-761: the tensor of gate `g` in the scratch memory. -/
def harGate (g : Nat) : Tensor := harVec (harIr + 32 * g) 64 32

/-- Weights for the input, weights for the previous output and bias of one gate. -/
structure HarPart where
  wi : Tensor
  wo : Tensor
  b : Tensor
deriving DecidableEq, Repr

/-- har_smartphone_model_fx.c:684-708: the weights and bias of gate `g`, with the first status that is not `MLI_STATUS_OK`. -/
def harPart (g : Nat) : Option (Status × HarPart) :=
  (createSubtensor harGates { offs := [g, 0, 0], sizes := [1, 32, 32], rank := 2 }).bind fun i =>
  (createSubtensor harGates { offs := [g, 0, 0], sizes := [1, 32, 32], rank := 2 }).bind fun o =>
  (createSubtensor (harMat 0 256 4 32) { offs := [g, 0], sizes := [1, 32], rank := 1 }).bind fun b =>
  some (if i.1 ≠ .ok then i.1 else if o.1 ≠ .ok then o.1 else b.1, ⟨i.2, o.2, b.2⟩)

/-- har_smartphone_model_fx.c:764-772: `rnn_dense` for gate `g`; 12 fractional bits (line 717).  (The gates are in an array of their own, apart from the
inputs, so the kernel may be given the memory before the call as its source.) -/
def harDense (m : Rnd) (W : HarWts) (p : HarPart) (ti tp : Tensor) (g : Nat) (mem : Buf) : Option (Status × Buf) :=
  krnRnnFx m 64 { fi := [15, 15], fw := [15, 15], fb := 14, fo := 12 } [⟨mem, ti, W.wi3, p.wi, true⟩, ⟨mem, tp, W.wo3, p.wo, true⟩] W.b3 p.b (harGate g) mem

/-- har_smartphone_model_fx.c:763-795: the calls of one step.  The kernels for activations set 15 fractional bits; L3_lstm_cell has 12 and the output 15. -/
def harStep (m : Rnd) (W : HarWts) (p0 p1 p2 p3 : HarPart) (ti tp tO : Tensor) (mem : Buf) : Option (Status × Buf) :=
  harCalls
    [harDense m W p0 ti tp 0, harDense m W p1 ti tp 1, harDense m W p2 ti tp 2, harDense m W p3 ti tp 3,
      krnActivationFx m sigmoidLut 16 12 (harGate 0) (harGate 0), krnActivationFx m tanhLut 16 12 (harGate 1) (harGate 1),
      krnActivationFx m sigmoidLut 16 12 (harGate 2) (harGate 2), krnActivationFx m sigmoidLut 16 12 (harGate 3) (harGate 3),
      krnEltwiseFx m 16 .mul 15 12 12 ⟨harGate 2, 0⟩ ⟨harVec harCell 64 32, 0⟩ (harVec harCell 64 32),
      krnEltwiseFx m 16 .mul 15 15 15 ⟨harGate 0, 0⟩ ⟨harGate 1, 0⟩ (harGate 1),
      krnEltwiseFx m 16 .add 12 15 12 ⟨harVec harCell 64 32, 0⟩ ⟨harGate 1, 0⟩ (harVec harCell 64 32),
      krnActivationFx m tanhLut 16 12 (harVec harCell 64 32) (harGate 1),
      krnEltwiseFx m 16 .mul 15 15 15 ⟨harGate 1, 0⟩ ⟨harGate 3, 0⟩ tO] mem

/-- har_smartphone_model_fx.c:736-796: the loop over the samples, `k` of them left, the next one `t`; `tp` is step_prev_out. -/
def harUserLoop (m : Rnd) (W : HarWts) (p0 p1 p2 p3 : HarPart) (tin tO : Tensor) : Nat → Nat → Tensor → Buf → Option (Status × Buf)
  | 0, _, _, mem => some (.ok, mem)
  | k + 1, t, tp, mem =>
    (createSubtensor tin { offs := [t, 0], sizes := [1, 32], rank := 1 }).bind fun i =>
      if i.1 ≠ .ok then some (i.1, mem)
      else (harStep m W p0 p1 p2 p3 i.2 tp tO mem).bind fun r =>
        if r.1 ≠ .ok then some r else harUserLoop m W p0 p1 p2 p3 tin tO k (t + 1) tO r.2

/-- har_smartphone_model_fx.c:659-799 `user_lstm` for the tensors of layer 3 (lines 135-169); the input is the output tensor of layer 2. -/
def harUserLstm (m : Rnd) (W : HarWts) (tin : Tensor) (mem : Buf) : Option (Status × Buf × Tensor) :=
  (harPart 0).bind fun p0 => if p0.1 ≠ .ok then some (p0.1, mem, harMat harY 8192 1 32) else
  (harPart 1).bind fun p1 => if p1.1 ≠ .ok then some (p1.1, mem, harMat harY 8192 1 32) else
  (harPart 2).bind fun p2 => if p2.1 ≠ .ok then some (p2.1, mem, harMat harY 8192 1 32) else
  (harPart 3).bind fun p3 => if p3.1 ≠ .ok then some (p3.1, mem, harMat harY 8192 1 32) else
  (createSubtensor (harMat harY 8192 1 32) { offs := [0, 0], sizes := [1, 32], rank := 1 }).bind fun o =>
  if o.1 ≠ .ok then some (o.1, mem, harMat harY 8192 1 32) else
  (harUserLoop m W p0.2 p1.2 p2.2 p3.2 tin o.2 128 0 (harVec harY 8192 32) mem).map fun r => (r.1, r.2, harMat harY 8192 1 32)

/-- har_smartphone_model_fx.c:476-515 with `CUSTOM_USER_LSTM_LAYER3`. -/
def harNetUser (m : Rnd) (W : HarWts) (mem : Buf) : Option (List Status × Buf) := harNetWith m W (harUserLstm m W) mem

/-- har_smartphone_model_fx.c:65-73 L0_move_out: the input in floating point. -/
def harFloat : Tensor := { dims := [⟨128, 9⟩, ⟨9, 1⟩], base := 0, cap := 8192, es := 4 }

/-- har_smartphone_model_fx.c:75-85 L0_convert_out. -/
def harInput : QTensor := { t := harMat harX 8192 128 9, ty := .fx16, fx := 13 }

/-- har_smartphone_model_fx.c:476-515: conversion of the input and network.  `inp` holds the input, moved to y_mem_buf (lines 470-474), as floating-point
elements; `mem` the arrays as 16-bit elements.  (y_mem_buf is both; the conversion reads it before anything else is written to it.) -/
def harApp (m : Rnd) (W : HarWts) (inp mem : Buf) : Option (List Status × Buf) :=
  (hlpConvertAny m inp (.f harFloat) (.q harInput) mem).bind fun r0 => (harNetUser m W r0.2).map fun r => (r0.1 :: r.1, r.2)

end Mli
