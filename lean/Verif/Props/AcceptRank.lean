import Verif.Props.Accept

/-! # C96: what the checks do not notice -/

namespace Mli

open Spec

/-- **Violation**: a slope tensor with one dimension passes for an input with two dimensions if the caller left a 1 behind the only size, and the call
succeeds; the documented shape is `[2, 1]`. -/
theorem c96_prelu_rank_violated :
    let tin : Tensor := { dims := [⟨2, 2⟩, ⟨2, 1⟩], cap := 4, es := 1 }
    let tout : Tensor := { dims := [⟨2, 2⟩, ⟨2, 1⟩], base := 4, cap := 4, es := 1 }
    let slope : Tensor := { dims := [⟨2, 1⟩], cap := 2, es := 1 }
    (krnPreluFx .up 8 3 7 3 (Buf.ofList [64, 32]) 0 tin ⟨slope, 0⟩ tout (fun _ => 1) (Buf.ofList [-4, 4, -4, 8, 0, 0, 0, 0])).map
      (fun p => (p.1, p.2.toList)) = some (.ok, [-4, 4, -4, 8, -2, 4, -1, 8]) ∧
    (krnPreluFx .up 8 3 7 3 (Buf.ofList [64, 32]) 0 tin ⟨slope, 0⟩ tout (fun _ => 0) (Buf.ofList [-4, 4, -4, 8, 0, 0, 0, 0])).map
      (fun p => p.1) = some .incompatibleTensors ∧
    ¬ SlopesOk 0 tin slope := by
  refine ⟨by decide +kernel, by decide +kernel, fun h => ?_⟩
  exact absurd (h.2.2.2 1 (by decide)) (by decide)

/-- **Violation**: an output with one dimension passes in the argmax kernel if the caller left the number of positions behind the only size; the call
succeeds, although the documented shape is `[1, 1]`. -/
theorem c96_argmax_rank_violated :
    let tin : Tensor := { dims := [⟨4, 1⟩], cap := 4, es := 1 }
    let tout : Tensor := { dims := [⟨1, 1⟩], cap := 4, es := 4 }
    (krnArgmax (Buf.ofList [3, 9, 7, 8]) tin tout (fun _ => 1) (-1) 1 (Buf.ofList [0])).map (fun p => (p.1, p.2.toList)) = some (.ok, [1]) ∧
    (krnArgmax (Buf.ofList [3, 9, 7, 8]) tin tout (fun _ => 0) (-1) 1 (Buf.ofList [0])).map (fun p => p.1) = some .shapeMismatch ∧
    ¬ ArgmaxCall tin tout (-1) 1 := by
  refine ⟨by decide +kernel, by decide +kernel, fun h => ?_⟩
  obtain ⟨-, -, -, -, -, n, -, hs, -⟩ := h
  exact absurd (congrArg List.length hs) (by simp [Tensor.shape])

/-- **Violation**: the size of the output times the stride is computed in 32 bits: a pooling of 4 elements into `2^29` elements with stride 8 is accepted. -/
theorem c96_window_violated :
    let tin : Tensor := { dims := [⟨1, 4⟩, ⟨4, 1⟩, ⟨1, 1⟩], cap := 4, es := 1 }
    let tout : Tensor := { dims := [⟨1, 2 ^ 29⟩, ⟨2 ^ 29, 1⟩, ⟨1, 1⟩], cap := 2 ^ 29, es := 1 }
    let g : Geo := { kh := 1, kw := 2, sh := 1, sw := 8, pt := 0, pb := 0, pl := 0, pr := 0 }
    g.Bytes ∧ TensorOk tin ∧ TensorOk tout ∧ chkPool tin g tout = some .ok ∧ ¬ PoolCall 0 tin g tout := by
  refine ⟨⟨by decide, by decide, by decide, by decide, by decide, by decide, by decide, by decide⟩, by unfold TensorOk; decide +kernel, by unfold TensorOk; decide +kernel, by decide +kernel,
    fun h => ?_⟩
  obtain ⟨-, -, -, -, -, ih, iw, ch, oh, ow, h1, h2, -, h3⟩ := h
  simp only [Tensor.shape, List.map_cons, List.map_nil, List.cons.injEq, and_true] at h1 h2
  obtain ⟨-, -, -, h3⟩ := h3
  rw [← h1.2.1, ← h2.2.1] at h3
  revert h3; decide

end Mli
