import Verif.Model.Fc
import Verif.Model.Eltwise
import Verif.Model.Lstm

/-!
# The human activity recognition example network

examples/example_har_smartphone/har_smartphone_model_fx.c of /repo, configured for 16-bit fixed point (`MODEL_FX_16`), from the
converted input on.  Layer 3 without `CUSTOM_USER_LSTM_LAYER3` is here, with it in Model/HarLstm.lean.  The four arrays for intermediate data (lines 44-47) are parts of one memory here.
-/

namespace Mli

open Spec

/-- har_smartphone_model_fx.c:35-47: where x_mem_buf, y_mem_buf, lstm_ir_mem_buf and lstm_cell_mem_buf begin, and the end of the last, in elements.
(The arrays are distinct objects; any other order would do.) -/
def harX : Int := 0
/-- har_smartphone_model_fx.c:45 y_mem_buf. -/
def harY : Int := 4096
/-- har_smartphone_model_fx.c:46 lstm_ir_mem_buf. -/
def harIr : Int := 8192
/-- har_smartphone_model_fx.c:47 lstm_cell_mem_buf. -/
def harCell : Int := 8320
/-- The end of the arrays. -/
def harEnd : Int := 8352

/-- A tensor of one dimension, har_smartphone_model_fx.c:99-109 and the like. -/
def harVec (base cap n : Int) : Tensor := { dims := [⟨n, 1⟩], base := base, cap := cap, es := 2 }

/-- A matrix, har_smartphone_model_fx.c:75-85 and the like. -/
def harMat (base cap r n : Int) : Tensor := { dims := [⟨r, n⟩, ⟨n, 1⟩], base := base, cap := cap, es := 2 }

/-- har_smartphone_constants.h:258-314: the weights of the LSTM layers. -/
def harGates : Tensor := { dims := [⟨4, 1024⟩, ⟨32, 32⟩, ⟨32, 1⟩], base := 0, cap := 8192, es := 2 }

/-- har_smartphone_model_fx.c:209-219 zero_tsr_fx16. -/
def harZero : Operand := ⟨{ dims := [], base := 0, cap := 0, es := 2 }, 0⟩

/-- The contents of L1_fc_wt_buf, L1_fc_bias_buf, L2_lstm_wt_in_buf, ..., L4_fc_bias_buf. -/
structure HarWts where
  w1 : Buf
  b1 : Buf
  wi2 : Buf
  wo2 : Buf
  b2 : Buf
  wi3 : Buf
  wo3 : Buf
  b3 : Buf
  w4 : Buf
  b4 : Buf

/-- har_smartphone_constants.h:196-198, 251 and har_smartphone_model_fx.c:84, 247-251: the formats of layer 1. -/
def harQ1 : FxQ := { fi := 13, fw := 14, fb := 14, fo := 12, relu := .gen }
/-- har_smartphone_constants.h:208-210 and 344: the formats of layer 4. -/
def harQ4 : FxQ := { fi := 15, fw := 15, fb := 17, fo := 12, relu := .none }
/-- har_smartphone_constants.h:200-202, 298-299: the formats of layer 2. -/
def harF2 : CellFx := { fi := 12, fh := 15, fwi := 15, fwo := 15, fb := 14, fc := 11, fo := 15 }
/-- har_smartphone_constants.h:204-206, 344-345: the formats of layer 3. -/
def harF3 : CellFx := { fi := 15, fh := 15, fwi := 15, fwo := 15, fb := 14, fc := 12, fo := 15 }

/-- har_smartphone_model_fx.c:639-652, the loop over the samples, `k` of them left; `ti` and `tO` are fc_in and fc_out.  (Input and output are in
different arrays, so the kernel may be given the memory before the call as its source.) -/
def harFcLoop (m : Rnd) (W : HarWts) : Nat → Tensor → Tensor → Status × Buf → Option (Status × Buf)
  | 0, _, _, s => some s
  | k + 1, ti, tO, s =>
    if s.1 ≠ .ok then some s
    else (krnFcFx m 16 64 true harQ1 s.2 W.w1 W.b1 ti (harMat 0 576 9 32) (harVec 0 64 32) tO s.2).bind fun s' =>
      harFcLoop m W k { ti with base := ti.base + 9, cap := ti.cap - 18 } { tO with base := tO.base + 32, cap := tO.cap - 64 } s'

/-- har_smartphone_model_fx.c:624-653 `user_fc_on_multiple_samples` for L0_convert_out and L1_fc_out. -/
def harFc1 (m : Rnd) (W : HarWts) (mem : Buf) : Option (Status × Buf) :=
  (createSubtensor (harMat harX 8192 128 9) { offs := [0, 0], sizes := [1, 9], rank := 1 }).bind fun i =>
    if i.1 ≠ .ok then some (i.1, mem)
    else (createSubtensor (harMat harY 8192 128 32) { offs := [0, 0], sizes := [1, 32], rank := 1 }).bind fun o =>
      harFcLoop m W 128 i.2 o.2 (o.1, mem)

/-- har_smartphone_model_fx.c:87-133, 255-299: the arguments of layer 2; prev_out and out are at the same address. -/
def harArgs2 (W : HarWts) : CellArgs :=
  { tin := harMat harY 8192 128 32, tprev := harVec harX 8192 32, twi := harGates, two := harGates, tb := harMat 0 256 4 32
    tout := harMat harX 8192 128 32, wi := W.wi2, wo := W.wo2, bias := W.b2, scr := harIr, scrCap := 256, backward := false, all := true }

/-- har_smartphone_model_fx.c:135-169, 304-348: the arguments of layer 3; the input is the output tensor `tin` of layer 2. -/
def harArgs3 (W : HarWts) (tin : Tensor) : CellArgs :=
  { tin := tin, tprev := harVec harY 8192 32, twi := harGates, two := harGates, tb := harMat 0 256 4 32
    tout := harMat harY 8192 1 32, wi := W.wi3, wo := W.wo3, bias := W.b3, scr := harIr, scrCap := 256, backward := false, all := false }

/-- har_smartphone_model_fx.c:498-499, 506-507: clearing a vector with `frac` fractional bits by a multiplication with zero. -/
def harClear (m : Rnd) (frac : Int) (t : Tensor) (mem : Buf) : Option (Status × Buf) :=
  krnEltwiseFx m 16 .mul frac 0 frac ⟨t, 0⟩ harZero t mem

/-- har_smartphone_model_fx.c:476-515 "Version A", from the converted input on, with `layer3` in place of `user_lstm`: the statuses of all calls, and the
memory.  (The application does not look at the statuses.) -/
def harNetWith (m : Rnd) (W : HarWts) (layer3 : Tensor → Buf → Option (Status × Buf × Tensor)) (mem : Buf) : Option (List Status × Buf) :=
  (harFc1 m W mem).bind fun r1 =>
  (harClear m 11 (harVec harCell 64 32) r1.2).bind fun r2 =>
  (harClear m 15 (harVec harX 8192 32) r2.2).bind fun r3 =>
  (krnLstmFx m 64 harF2 .tanh (harArgs2 W) (harVec harCell 64 32) r3.2).bind fun r4 =>
  (harClear m 12 (harVec harCell 64 32) r4.2.1).bind fun r5 =>
  (harClear m 15 (harVec harY 8192 32) r5.2).bind fun r6 =>
  (layer3 r4.2.2 r6.2).bind fun r7 =>
  (krnFcFx m 16 64 true harQ4 r7.2.1 W.w4 W.b4 r7.2.2 (harMat 0 384 32 6) (harVec 0 12 6) (harVec harX 8192 6) r7.2.1).bind fun r8 =>
  some ([r1.1, r2.1, r3.1, r4.1, r5.1, r6.1, r7.1, r8.1], r8.2)

/-- har_smartphone_model_fx.c:476-515 without `CUSTOM_USER_LSTM_LAYER3` (lines 795-798). -/
def harNet (m : Rnd) (W : HarWts) (mem : Buf) : Option (List Status × Buf) :=
  harNetWith m W (fun tin => krnLstmFx m 64 harF3 .tanh (harArgs3 W tin) (harVec harCell 64 32)) mem

end Mli
