import Verif.Props.Net
import Verif.Props.FcAbs

/-!
# C102: 8-bit weights in layers with more than 511 inputs
-/

namespace Mli

open Spec

/-- As `Acc32` for 16-bit inputs and 8-bit weights, with the weights themselves instead of their number: what they can add up to, and the bias, fit 32 bits. -/
def AccW (m : Rnd) (tin : Tensor) (l : FcFxCall) : Prop :=
  (∀ o, InShape l.tout.shape [o] → 2 ^ 15 * absLine (prod tin.shape) (fun i => l.wts.get (l.tw.addr [i, o])) +
    |l.bias.get (l.tb.addr [o]) * 2 ^ (l.f.fi + l.f.fw - l.f.fb).toNat| < 2 ^ 31) ∧
  (m = .up → l.f.fi + l.f.fw - l.f.fo ≤ 16 ∨ 32 ≤ l.f.fi + l.f.fw - l.f.fo)

/-- **C102**, 16 bits with 8-bit weights and biases, for layers of any size with weights that are small together.  Partial: the conditions in `AccW`. -/
theorem c102_fx16_fx8_weights_partial (m : Rnd) (ls : List (FcFxCall × ℚ)) (fi : Int) (tin : Tensor) (src : Buf) (x : Int → ℚ) (e : ℚ)
    (h : FcFxNet 8 (AccW m) fi tin ls) (vi : tin.Valid src) (hi : tin.Holds src 16) (he : 0 ≤ e) (hx : tin.Near src (fxNum fi) x e) :
    ∃ out, runFcFx m 16 32 (ls.map (·.1)) tin src = some ((fcFxLast fi tin ls).2, out) ∧
      (fcFxLast fi tin ls).2.Near out (fxNum (fcFxLast fi tin ls).1) (netQ (fcFxReal 16 tin ls) x) (netErr (ls.map fun p => (p.2, p.1.err)) e) := by
  refine fcFx_net m 16 8 32 _ (fun fi tin l g src n k F ex vi hi sw => ?_) ls fi tin src x e h vi hi he hx
  obtain ⟨n', k', sw', hn, so, -⟩ := F.shapes vi
  rw [sw] at sw'
  simp only [List.cons.injEq, and_true] at sw'
  obtain ⟨rfl, rfl⟩ := sw'
  have inS : ∀ o, 0 ≤ o → o < k → InShape l.tout.shape [o] := fun o h0 h1 => by rw [so]; exact ⟨⟨h0, h1⟩, trivial⟩
  obtain ⟨dst', val, X, hX, r1, r2, r3⟩ := c39_fx16_fx8_weights_partial m l.apart l.f src l.wts l.bias l.dst tin l.tw l.tb l.tout n k
    ⟨vi, F.vw, F.vb, F.vo, hi, F.hw, F.hb⟩ F.accepted sw (fun o h0 h1 => by
      have := ex.1 o (inS o h0 h1)
      have := abs_nonneg (l.bias.get (l.tb.addr [o]) * 2 ^ (l.f.fi + l.f.fw - l.f.fb).toNat)
      rw [hn]; omega) F.one ex.2
  refine ⟨dst', val, X, hX, r1, r2, fun o ho => ?_⟩
  obtain ⟨r, h1, h2⟩ := r3 o ho
  refine ⟨h2.1.1, ?_⟩
  have e := dotSumQ_eq ((2 : ℚ) ^ (-l.f.fi)) ((2 : ℚ) ^ (-l.f.fw)) (n := n) (X := X) (W := fun i => l.wts.get (l.tw.addr [i, o]))
    (XQ := fun i => fxNum l.f.fi (X i)) (WQ := fun i => fxNum l.f.fw (l.wts.get (l.tw.addr [i, o]))) (fun i => rfl) (fun i => rfl)
  rw [e]
  have ho' : 0 ≤ o ∧ o < k := by rw [so] at ho; exact ho.1
  obtain ⟨-, bX, -⟩ := fc_operands vi hi F.hw hX sw hn ho'
  have bound : |dotSum n X (fun i => l.wts.get (l.tw.addr [i, o]))| ≤ 2 ^ 15 * absLine (prod tin.shape) (fun i => l.wts.get (l.tw.addr [i, o])) := by
    rw [← hn]
    unfold dotSum absLine
    rw [Finset.mul_sum]
    refine (Finset.abs_sum_le_sum_abs _ _).trans (Finset.sum_le_sum fun i hi => ?_)
    have hi := Finset.mem_range.1 hi
    rw [abs_mul]
    exact mul_le_mul_of_nonneg_right (inRange_abs (w := 16) (by decide) (bX i (by omega) (by omega))) (abs_nonneg _)
  exact fx32_real (by decide) (chkFcFx_ok F.accepted).1
    (by unfold SumFits; rw [if_pos rfl]; exact lt_of_le_of_lt (add_le_add_left bound _) (ex.1 o ho)) h1 h2

/-- A network of one layer with 600 inputs, weights of -109 and bias 5. -/
def exNet600 : FcFxCall × ℚ :=
  (⟨{ fi := 15, fw := 7, fb := 7, fo := 6, relu := .none }, exFcWt600, exBias1, exFcOut1, exWts600, Buf.ofList [5], Buf.ofList [99], true⟩, 600)

/-- The network meets the hypotheses of `c102_fx16_fx8_weights_partial`. -/
example : FcFxNet 8 (AccW .up) 15 exFcIn600 [exNet600] ∧ exFcIn600.Valid exSrc600 ∧ exFcIn600.Holds exSrc600 16 := by
  have hp : prod exFcIn600.shape = 600 := by decide
  have hb : ∀ o : Nat, o < 1 → |exNet600.1.bias.get (exNet600.1.tb.addr [(o : Int)]) * 2 ^ (exNet600.1.f.fi + exNet600.1.f.fw - exNet600.1.f.fb).toNat| ≤ 5 * 2 ^ 15 := by
    decide +kernel
  refine ⟨⟨⟨rfl, by decide +kernel, exFcArgs600.vw, exFcArgs600.vb, exFcArgs600.vo, exFcArgs600.hw, exFcArgs600.hb, by decide, fun o _ => ?_⟩, ⟨fun o ho => ?_, by decide⟩,
    trivial⟩, exFcArgs600.vi, exFcArgs600.hi⟩
  · rw [hp]
    refine (fxGain (n := 600) (f := 7) (B := 109) (W := fun _ => -109) fun _ _ => by decide).trans ?_
    show _ ≤ (600 : ℚ)
    norm_num
  · have h0 : 0 ≤ o := ho.1.1
    have h1 : o < 1 := ho.1.2
    lift o to ℕ using h0
    have := hb o (by omega)
    have ea : absLine 600 (fun _ => -109) = 65400 := by simp [absLine]
    rw [hp]
    show 2 ^ 15 * absLine 600 (fun _ => -109) + |exNet600.1.bias.get (exNet600.1.tb.addr [(o : Int)]) *
      2 ^ (exNet600.1.f.fi + exNet600.1.f.fw - exNet600.1.f.fb).toNat| < 2 ^ 31
    rw [ea]
    omega

end Mli
