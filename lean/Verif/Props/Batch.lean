import Verif.Model.Batch
import Verif.Props.ConvRuntime

/-!
# Batches (C56)
-/

namespace Mli

open Spec

/-- `n` batch elements of the shape of `t`, `s` elements apart, in one buffer. -/
structure Tensor.Batch (t : Tensor) (n : Nat) (s : Int) (b : Buf) : Prop where
  valid : ∀ i < n, (t.shift (i * s)).Valid b
  step : t.cap ≤ s * t.es

/-- `mem'` is `mem` with element `is` of batch element `i` set to `val i is` for every `i < n`, and nothing else
changed. -/
structure Tensor.BatchWrites (t : Tensor) (n : Nat) (s : Int) (val : Nat → List Int → Int) (mem mem' : Buf) : Prop where
  size : mem'.size = mem.size
  elem : ∀ i < n, ∀ is, InShape t.shape is → mem'.get ((t.shift (i * s)).addr is) = val i is
  frame : ∀ a, (∀ i < n, ∀ is, InShape t.shape is → (t.shift (i * s)).addr is ≠ a) → mem'.get a = mem.get a

theorem batch_apart {t : Tensor} {n : Nat} {s : Int} {b : Buf} (h : t.Batch n s b) {i j : Nat} (hi : i < n) (hj : j < n)
    (hne : i < j) {is js : List Int} (h1 : InShape t.shape is) (h2 : InShape t.shape js) :
    (t.shift (i * s)).addr is ≠ (t.shift (j * s)).addr js := by
  obtain ⟨a1, a2⟩ := c08_accepted_in_bounds_partial _ (h.valid i hi).typed (h.valid i hi).small (h.valid i hi).accepted is h1
  obtain ⟨b1, b2⟩ := c08_accepted_in_bounds_partial _ (h.valid j hj).typed (h.valid j hj).small (h.valid j hj).accepted js h2
  have hes : 1 ≤ t.es := by have := (h.valid i hi).typed.2.2.2; simp only [Tensor.shift] at this; omega
  have hst := h.step
  simp only [Tensor.shift, Tensor.addr, Tensor.strides] at *
  intro e
  generalize offset (List.map (fun x => x.stride) t.dims) is = x at *
  generalize offset (List.map (fun x => x.stride) t.dims) js = y at *
  have k1 : x + 1 ≤ s := by
    by_contra hc
    have : (s + 1) * t.es ≤ (x + 1) * t.es := Int.mul_le_mul_of_nonneg_right (by omega) (by omega)
    have e : (s + 1) * t.es = s * t.es + t.es := by ring
    omega
  have k2 : ((i : Int) + 1) * s ≤ j * s := Int.mul_le_mul_of_nonneg_right (by omega) (by omega)
  have k3 : ((i : Int) + 1) * s = i * s + s := by ring
  omega

/-- A loop over batch elements. -/
theorem batch_run {t : Tensor} {n : Nat} {s : Int} {dst : Buf} (h : t.Batch n s dst) (f : Nat → Buf → Option Buf)
    (val : Nat → List Int → Int)
    (hf : ∀ i d, i < n → d.size = dst.size → ∃ d', f i d = some d' ∧ (t.shift (i * s)).Writes (val i) d d') :
    ∃ dst', forRange n f dst = some dst' ∧ t.BatchWrites n s val dst dst' := by
  obtain ⟨d, h1, h2⟩ := forRange_inv (n := n) (f := f) (s := dst) (fun k d => k ≤ n → t.BatchWrites k s val dst d)
    (fun _ => ⟨rfl, fun i hi => absurd hi (by omega), fun _ _ => rfl⟩) (by
      intro i d hi hP
      have P := hP (by omega)
      obtain ⟨d', r1, r2⟩ := hf i d hi P.size
      refine ⟨d', r1, fun _ => ⟨r2.size.trans P.size, fun j hj is hs => ?_, fun a ha => ?_⟩⟩
      · by_cases hji : j = i
        · subst hji; exact r2.elem is hs
        · rw [r2.frame _ (fun js hjs => (batch_apart h (by omega) hi (by omega) hs hjs).symm)]
          exact P.elem j (by omega) is hs
      · rw [r2.frame a (fun is hs => ha i (by omega) is hs), P.frame a (fun j hj is hs => ha j (by omega) is hs)])
  exact ⟨d, h1, h2 (le_refl _)⟩

/-- A window has one maximum. -/
theorem isWindowMax_unique {X : Int → Int → Int} {ih iw kh kw sh sw pt pl y x a b : Int}
    (h : IsWindowMax X ih iw kh kw sh sw pt pl y x a) (h' : IsWindowMax X ih iw kh kw sh sw pt pl y x b) : a = b := by
  obtain ⟨u, i, j, ⟨i0, i1⟩, ⟨j0, j1⟩, ⟨r0, r1⟩, ⟨c0, c1⟩, e⟩ := h
  obtain ⟨u', i', j', ⟨i0', i1'⟩, ⟨j0', j1'⟩, ⟨r0', r1'⟩, ⟨c0', c1'⟩, e'⟩ := h'
  have k1 := u i' j' i0' i1' j0' j1' r0' r1' c0' c1'
  have k2 := u' i j i0 i1 j0 j1 r0 r1 c0 c1
  omega

/-- C56 for `MaxPool2D::Issue`: batch element `b` of the output is the pooling of batch element `b` of the input. -/
theorem c56_maxpool_partial (n : Nat) (si so : Int) (tin tout : Tensor) (g : Geo) (src dst : Buf) (ih iw ic oh ow : Int)
    (hv : tin.Batch n si src) (ho : tout.Batch n so dst) (hchk : chkPool tin g tout = some .ok)
    (hg : PoolGeo tin g tout ih iw ic oh ow) :
    ∃ dst' val, maxpoolIssueN n si so src tin g tout dst = some dst' ∧ tout.BatchWrites n so val dst dst' ∧
      ∀ b < n, ∀ y x c, InShape tout.shape [y, x, c] →
        IsWindowMax (fun r q => src.get ((tin.shift (b * si)).addr [r, q, c])) ih iw g.kh g.kw g.sh g.sw g.pt g.pl y x (val b [y, x, c]) := by
  have step : ∀ i : Nat, i < n → ∃ v : List Int → Int, (∀ d : Buf, d.size = dst.size →
      ∃ d', poolHwc reduceMax src g (tin.shift (i * si)) (tout.shift (i * so)) d = some d' ∧ (tout.shift (i * so)).Writes v d d') ∧
      ∀ y x c, InShape tout.shape [y, x, c] →
        IsWindowMax (fun r q => src.get ((tin.shift (i * si)).addr [r, q, c])) ih iw g.kh g.kw g.sh g.sw g.pt g.pl y x (v [y, x, c]) := by
    intro i hi
    have hvo : ∀ d : Buf, d.size = dst.size → (tout.shift (i * so)).Valid d := fun d hd =>
      let v := ho.valid i hi
      ⟨v.typed, v.small, v.accepted, by have := v.fits; unfold Tensor.Fits at *; rwa [hd]⟩
    have run := fun d hd => c34_maxpool_partial (tin.shift (i * si)) (tout.shift (i * so)) g src d ih iw ic oh ow (hv.valid i hi) (hvo d hd) hchk
      ⟨hg.sin, hg.sout, hg.h, hg.w⟩
    obtain ⟨d0, v, r1, r2, r3⟩ := run dst rfl
    refine ⟨v, fun d hd => ?_, r3⟩
    obtain ⟨d', v', q1, q2, q3⟩ := run d hd
    have q1' : poolHwc reduceMax src g (tin.shift (i * si)) (tout.shift (i * so)) d = some d' := by
      unfold krnMaxpool at q1
      rw [show chkPool (tin.shift (i * si)) g (tout.shift (i * so)) = some .ok from hchk] at q1
      simp only [Option.bind_eq_bind, Option.bind_some, ne_eq, not_true_eq_false, if_false, Option.bind_eq_some_iff] at q1
      obtain ⟨_, e, q⟩ := q1
      cases q
      exact e
    refine ⟨d', q1', q2.congr fun is hs => ?_⟩
    have hs' := hs
    rw [show (tout.shift (i * so)).shape = [oh, ow, ic] from hg.sout] at hs'
    obtain ⟨y, x, k, rfl, -⟩ := inShape3 hs'
    exact isWindowMax_unique (q3 y x k hs) (r3 y x k hs)
  choose! v hv1 hv2 using step
  obtain ⟨dst', r1, r2⟩ := batch_run ho (fun b d => poolHwc reduceMax src g (tin.shift (b * si)) (tout.shift (b * so)) d) v
    (fun i d hi hd => hv1 i hi d hd)
  exact ⟨dst', v, r1, r2, hv2⟩

/-- C56 for `SumPool2D::Issue`. -/
theorem c56_sumpool_partial (n : Nat) (si so : Int) (tin tout : Tensor) (g : Geo) (src dst : Buf) (ih iw ic oh ow : Int)
    (hv : tin.Batch n si src) (ho : tout.Batch n so dst) (hchk : chkPool tin g tout = some .ok)
    (hg : PoolGeo tin g tout ih iw ic oh ow) (hr : ∀ b < n, ∀ is, InShape tin.shape is → InRange 8 (src.get ((tin.shift (b * si)).addr is))) :
    ∃ dst' val, sumpoolIssueN n si so src tin g tout dst = some dst' ∧ tout.BatchWrites n so val dst dst' ∧
      ∀ b < n, ∀ y x c, InShape tout.shape [y, x, c] →
        val b [y, x, c] = windowSum (fun r q => src.get ((tin.shift (b * si)).addr [r, q, c])) ih iw g.kh g.kw g.sh g.sw g.pt g.pl y x := by
  let v : Nat → List Int → Int := fun b is =>
    match is with
    | [y, x, c] => windowSum (fun r q => src.get ((tin.shift (b * si)).addr [r, q, c])) ih iw g.kh g.kw g.sh g.sw g.pt g.pl y x
    | _ => 0
  obtain ⟨dst', r1, r2⟩ := batch_run ho (fun b d => poolHwc sumOp src g (tin.shift (b * si)) (tout.shift (b * so)) d) v (by
    intro i d hi hd
    have hvo : (tout.shift (i * so)).Valid d :=
      let v := ho.valid i hi
      ⟨v.typed, v.small, v.accepted, by have := v.fits; unfold Tensor.Fits at *; rwa [hd]⟩
    obtain ⟨d', v', q1, q2, q3⟩ := c54_sumpool_partial (tin.shift (i * si)) (tout.shift (i * so)) g src d ih iw ic oh ow (hv.valid i hi) hvo hchk
      ⟨hg.sin, hg.sout, hg.h, hg.w⟩ (hr i hi)
    refine ⟨d', q1, q2.congr fun is hs => ?_⟩
    have hs' := hs
    rw [show (tout.shift (i * so)).shape = [oh, ow, ic] from hg.sout] at hs'
    obtain ⟨y, x, k, rfl, -⟩ := inShape3 hs'
    exact q3 y x k hs)
  exact ⟨dst', v, r1, r2, fun _ _ _ _ _ _ => rfl⟩

/-- Two batch elements, with gaps between them. -/
example :
    let tin : Tensor := { dims := [⟨2, 4⟩, ⟨4, 1⟩, ⟨1, 1⟩], cap := 8, es := 1 }
    let tout : Tensor := { dims := [⟨1, 2⟩, ⟨2, 1⟩, ⟨1, 1⟩], cap := 8, es := 4 }
    let tou1 : Tensor := { dims := [⟨1, 2⟩, ⟨2, 1⟩, ⟨1, 1⟩], cap := 2, es := 1 }
    let g : Geo := { kh := 2, kw := 2, sh := 1, sw := 2, pt := 0, pb := 0, pl := 0, pr := 0 }
    let src := Buf.ofList [127, 127, 1, -1, 127, 127, -128, -128, 0, 1, 2, 3, 4, 5, 6, 7, 8]
    let dst := Buf.ofList [0, 0, 99, 0, 0]
    tin.Batch 2 9 src ∧ tout.Batch 2 3 dst ∧ tou1.Batch 2 3 dst ∧ chkPool tin g tout = some .ok ∧ chkPool tin g tou1 = some .ok ∧
    PoolGeo tin g tout 2 4 1 1 2 ∧ PoolGeo tin g tou1 2 4 1 1 2 ∧
    (sumpoolIssueN 2 9 3 src tin g tout dst).map (·.toList) = some [508, -256, 99, 14, 22] ∧
    (maxpoolIssueN 2 9 3 src tin g tou1 dst).map (·.toList) = some [127, 1, 99, 6, 8] := by
  refine ⟨⟨?_, by decide⟩, ⟨?_, by decide⟩, ⟨?_, by decide⟩, by decide, by decide,
    ⟨by decide, by decide, ⟨by decide, by decide, by decide, by decide⟩, ⟨by decide, by decide, by decide, by decide⟩⟩,
    ⟨by decide, by decide, ⟨by decide, by decide, by decide, by decide⟩, ⟨by decide, by decide, by decide, by decide⟩⟩,
    by decide +kernel, by decide +kernel⟩
  all_goals
    intro i hi
    rcases (show i = 0 ∨ i = 1 by omega) with rfl | rfl <;> exact ⟨by decide, by decide, by decide, by decide⟩

/-- C56 for `DepthwiseConv2d::Issue` holds for a batch of one. -/
theorem c56_depthwise_partial (si so zx zw : Int) (src wts dst : Buf) (tin tw tout : Tensor) (c : ConvCfg) :
    depthwiseIssueN 1 si so zx zw src wts tin tw c tout dst = depthwiseIssue zx zw src wts tin tw c tout dst := by
  simp [depthwiseIssueN, forRange]

/-- C56 fails for `DepthwiseConv2d::Issue`: batch elements after the first are never written.  1 by 1 kernel with weight 1, input
batch 5, 6; the output should become 5, 6. -/
theorem c56_depthwise_violated :
    let w1 : Tensor := { dims := [⟨1, 1⟩, ⟨1, 1⟩, ⟨1, 1⟩, ⟨1, 1⟩], cap := 1, es := 1 }
    let i1 : Tensor := { dims := [⟨1, 1⟩, ⟨1, 1⟩, ⟨1, 1⟩], cap := 1, es := 1 }
    let o1 : Tensor := { dims := [⟨1, 1⟩, ⟨1, 1⟩, ⟨1, 1⟩], cap := 4, es := 4 }
    i1.Batch 2 1 (Buf.ofList [5, 6]) ∧ o1.Batch 2 1 (Buf.ofList [99, 99]) ∧
    (depthwiseIssueN 2 1 1 0 0 (Buf.ofList [5, 6]) (Buf.ofList [1]) i1 w1 { sh := 1, sw := 1 } o1 (Buf.ofList [99, 99])).map Buf.toList = some [5, 99] := by
  refine ⟨⟨?_, by decide⟩, ⟨?_, by decide⟩, by decide +kernel⟩
  all_goals
    intro i hi
    rcases (show i = 0 ∨ i = 1 by omega) with rfl | rfl <;> exact ⟨by decide, by decide, by decide, by decide⟩

end Mli
