import Verif.Model.Har

/-!
# The human activity recognition example network with 8-bit weights

examples/example_har_smartphone/har_smartphone_model_fx.c of /repo, configured for 16-bit data with 8-bit weights and biases (`MODEL_FX_8W16D`), from
the converted input on.  Layer 3 without `CUSTOM_USER_LSTM_LAYER3` is here, with it in Model/HarWLstm.lean.  The data are arranged as in
Model/Har.lean.
-/

namespace Mli

open Spec

/-- A bias of 8-bit elements, har_smartphone_model_fx.c:235-244, 364-373. -/
def harVecW (n : Int) : Tensor := { dims := [⟨n, 1⟩], base := 0, cap := n, es := 1 }

/-- A matrix of 8-bit elements, har_smartphone_model_fx.c:223-232, 279-288, 328-337, 352-361. -/
def harMatW (cap r n : Int) : Tensor := { dims := [⟨r, n⟩, ⟨n, 1⟩], base := 0, cap := cap, es := 1 }

/-- har_smartphone_constants.h:258-314: the weights of the LSTM layers, with 8-bit elements. -/
def harGatesW : Tensor := { dims := [⟨4, 1024⟩, ⟨32, 32⟩, ⟨32, 1⟩], base := 0, cap := 4096, es := 1 }

/-- har_smartphone_constants.h:196-198, 251 and har_smartphone_model_fx.c:84, 247-251: the formats of layer 1. -/
def harQ1W : FxQ := { fi := 13, fw := 6, fb := 6, fo := 12, relu := .gen }
/-- har_smartphone_constants.h:208-210 and 344: the formats of layer 4. -/
def harQ4W : FxQ := { fi := 15, fw := 7, fb := 9, fo := 12, relu := .none }
/-- har_smartphone_constants.h:200-202, 298-299: the formats of layer 2. -/
def harF2W : CellFx := { fi := 12, fh := 15, fwi := 7, fwo := 7, fb := 6, fc := 11, fo := 15 }
/-- har_smartphone_constants.h:204-206, 344-345: the formats of layer 3. -/
def harF3W : CellFx := { fi := 15, fh := 15, fwi := 7, fwo := 7, fb := 6, fc := 12, fo := 15 }

/-- har_smartphone_model_fx.c:639-652, the loop over the samples, `k` of them left; `ti` and `tO` are fc_in and fc_out.  (Input and output are in
different arrays, so the kernel may be given the memory before the call as its source.) -/
def harFcLoopW (m : Rnd) (W : HarWts) : Nat → Tensor → Tensor → Status × Buf → Option (Status × Buf)
  | 0, _, _, s => some s
  | k + 1, ti, tO, s =>
    if s.1 ≠ .ok then some s
    else (krnFcFx m 16 32 true harQ1W s.2 W.w1 W.b1 ti (harMatW 288 9 32) (harVecW 32) tO s.2).bind fun s' =>
      harFcLoopW m W k { ti with base := ti.base + 9, cap := ti.cap - 18 } { tO with base := tO.base + 32, cap := tO.cap - 64 } s'

/-- har_smartphone_model_fx.c:624-653 `user_fc_on_multiple_samples` for L0_convert_out and L1_fc_out. -/
def harFc1W (m : Rnd) (W : HarWts) (mem : Buf) : Option (Status × Buf) :=
  (createSubtensor (harMat harX 8192 128 9) { offs := [0, 0], sizes := [1, 9], rank := 1 }).bind fun i =>
    if i.1 ≠ .ok then some (i.1, mem)
    else (createSubtensor (harMat harY 8192 128 32) { offs := [0, 0], sizes := [1, 32], rank := 1 }).bind fun o =>
      harFcLoopW m W 128 i.2 o.2 (o.1, mem)

/-- har_smartphone_model_fx.c:87-133, 255-299: the arguments of layer 2; prev_out and out are at the same address. -/
def harArgs2W (W : HarWts) : CellArgs :=
  { tin := harMat harY 8192 128 32, tprev := harVec harX 8192 32, twi := harGatesW, two := harGatesW, tb := harMatW 128 4 32
    tout := harMat harX 8192 128 32, wi := W.wi2, wo := W.wo2, bias := W.b2, scr := harIr, scrCap := 256, backward := false, all := true }

/-- har_smartphone_model_fx.c:135-169, 304-348: the arguments of layer 3; the input is the output tensor `tin` of layer 2. -/
def harArgs3W (W : HarWts) (tin : Tensor) : CellArgs :=
  { tin := tin, tprev := harVec harY 8192 32, twi := harGatesW, two := harGatesW, tb := harMatW 128 4 32
    tout := harMat harY 8192 1 32, wi := W.wi3, wo := W.wo3, bias := W.b3, scr := harIr, scrCap := 256, backward := false, all := false }

/-- har_smartphone_model_fx.c:476-515 "Version A", from the converted input on, with `layer3` in place of `user_lstm`: the statuses of all calls, and the
memory.  (The application does not look at the statuses.)  Lines 842-843, 861-862 select the kernels. -/
def harNetWithW (m : Rnd) (W : HarWts) (layer3 : Tensor → Buf → Option (Status × Buf × Tensor)) (mem : Buf) : Option (List Status × Buf) :=
  (harFc1W m W mem).bind fun r1 =>
  (harClear m 11 (harVec harCell 64 32) r1.2).bind fun r2 =>
  (harClear m 15 (harVec harX 8192 32) r2.2).bind fun r3 =>
  (krnLstmFx m 32 harF2W .tanh (harArgs2W W) (harVec harCell 64 32) r3.2).bind fun r4 =>
  (harClear m 12 (harVec harCell 64 32) r4.2.1).bind fun r5 =>
  (harClear m 15 (harVec harY 8192 32) r5.2).bind fun r6 =>
  (layer3 r4.2.2 r6.2).bind fun r7 =>
  (krnFcFx m 16 32 true harQ4W r7.2.1 W.w4 W.b4 r7.2.2 (harMatW 192 32 6) (harVecW 6) (harVec harX 8192 6) r7.2.1).bind fun r8 =>
  some ([r1.1, r2.1, r3.1, r4.1, r5.1, r6.1, r7.1, r8.1], r8.2)

/-- har_smartphone_model_fx.c:476-515 without `CUSTOM_USER_LSTM_LAYER3` (lines 795-798). -/
def harNetW (m : Rnd) (W : HarWts) (mem : Buf) : Option (List Status × Buf) :=
  harNetWithW m W (fun tin => krnLstmFx m 32 harF3W .tanh (harArgs3W W tin) (harVec harCell 64 32)) mem

end Mli
