import Verif.Model.FixedKernel
import Verif.Props.AvePool
import Verif.Props.ConvMore
import Verif.Props.GroupConv
import Verif.Props.TransposeConv

/-! # Kernels specialised for one kernel size (C83) -/

namespace Mli

open Spec

/-- A kernel specialised for some arguments (`fits`): for these it does what the general kernel does, all others it
refuses with an error status, without touching the output. -/
def SpecialCase (fits : Prop) (special general : Buf → Option (Status × Buf)) : Prop :=
  (fits → ∀ dst, special dst = general dst) ∧
  (¬ fits → ∀ dst s dst', special dst = some (s, dst') → s ≠ .ok ∧ dst' = dst)

/-- The weights are `ks` high and `ks` wide. -/
def SizedFor (ks : Int) (tw : Tensor) : Prop := tw.shape.getD 0 0 = ks ∧ tw.shape.getD 1 0 = ks

/-! ## Convolutions -/

theorem noPad_eq {c : ConvCfg} {i o : Prv} {w : WPrv} {ks : Int}
    (h : ks = 1 → c.pt = 0 ∧ c.pb = 0 ∧ c.pl = 0 ∧ c.pr = 0) :
    convAdjust (ks = 1) c i w o = convAdjust ((0 : Int) = 1) c i w o := by
  have e : (if ks = 1 then { c with pt := 0, pb := 0, pl := 0, pr := 0 } else c) = c := by
    split
    · rename_i hk
      obtain ⟨z1, z2, z3, z4⟩ := h hk
      cases c
      simp only at z1 z2 z3 z4
      subst z1 z2 z3 z4
      rfl
    · rfl
  unfold convAdjust
  simp only [decide_eq_true_eq, e]
  rfl

theorem prvHwcnFix_eq {ks : Int} {tw : Tensor} (h : SizedFor ks tw) : prvHwcnFix ks tw = prvHwcnFix 0 tw := by
  unfold prvHwcnFix
  rcases hw : prvHwcn true tw with _ | w
  · rfl
  · simp only [Option.map_some, if_true, Option.some.injEq]
    split
    · rfl
    · unfold prvHwcn at hw
      unfold SizedFor Tensor.shape at h
      split at hw
      · rename_i h' w' c' n' e
        rw [e] at h
        simp only [List.map_cons, List.getD_cons_zero, List.getD_cons_succ] at h
        obtain ⟨h1, h2⟩ := h
        subst h1
        injection hw with hw
        subst hw
        simp only [WPrv.mk.injEq, true_and, and_true]
        omega
      · cases hw

theorem pads_zero {c : ConvCfg} (hc : c.Typed) {kh kw : Int} (h1 : kh = 1) (h2 : kw = 1)
    (p : c.pl < wrap 32 ((kw - 1) * c.dw + 1) ∧ c.pr < wrap 32 ((kw - 1) * c.dw + 1) ∧
       c.pt < wrap 32 ((kh - 1) * c.dh + 1) ∧ c.pb < wrap 32 ((kh - 1) * c.dh + 1)) :
    c.pt = 0 ∧ c.pb = 0 ∧ c.pl = 0 ∧ c.pr = 0 := by
  subst h1 h2
  have e : ∀ d, wrap 32 ((1 - 1) * d + 1) = 1 := by intro d; rw [Int.sub_self, Int.zero_mul]; decide
  rw [e, e] at p
  obtain ⟨⟨t1, -⟩, ⟨t2, -⟩, ⟨t3, -⟩, ⟨t4, -⟩, ⟨t5, -⟩, ⟨t6, -⟩, -⟩ := hc
  omega

theorem chkConv_fix {dw apart : Bool} {ks : Int} {tin tw tb tout : Tensor} {c : ConvCfg} (h : SizedFor ks tw) :
    chkConv dw ks apart tin tw tb c tout = chkConv dw 0 apart tin tw tb c tout := by
  unfold chkConv
  rw [if_neg (by rintro ⟨-, h'⟩; exact h' h), if_neg (by simp)]

theorem chkConv_refuse {dw apart : Bool} {ks : Int} {tin tw tb tout : Tensor} {c : ConvCfg} (h0 : ks ≠ 0) (h : ¬ SizedFor ks tw) :
    chkConv dw ks apart tin tw tb c tout = some .shapeMismatch := by
  unfold chkConv
  rw [if_pos ⟨h0, h⟩]

theorem chkGroup_fix {apart : Bool} {ks : Int} {tin tw tb tout : Tensor} {c : ConvCfg} (h : SizedFor ks tw) :
    chkGroup ks apart tin tw tb c tout = chkGroup 0 apart tin tw tb c tout := by
  unfold chkGroup
  rw [if_neg (by rintro ⟨-, h'⟩; exact h' h), if_neg (by simp)]

theorem chkGroup_refuse {apart : Bool} {ks : Int} {tin tw tb tout : Tensor} {c : ConvCfg} (h0 : ks ≠ 0) (h : ¬ SizedFor ks tw) :
    chkGroup ks apart tin tw tb c tout = some .shapeMismatch := by
  unfold chkGroup
  rw [if_pos ⟨h0, h⟩]

theorem chkConv_pads {dw apart : Bool} {ks : Int} {tin tw tb tout : Tensor} {c : ConvCfg} (hc : c.Typed) (h : SizedFor ks tw)
    (hck : chkConv dw 0 apart tin tw tb c tout = some .ok) (h1 : ks = 1) : c.pt = 0 ∧ c.pb = 0 ∧ c.pl = 0 ∧ c.pr = 0 := by
  rw [← chkConv_fix h] at hck
  obtain ⟨ih, iw, ic, kh, kw, kc, kn, bn, oh, ow, oc, -, -, -, -, -, -, -, -, -, -, -, hks, -, -, -, -, p, -⟩ := chkConv_ok hck
  obtain ⟨k1, k2⟩ := hks (by omega)
  exact pads_zero hc (by omega) (by omega) p

theorem chkGroup_pads {apart : Bool} {ks : Int} {tin tw tb tout : Tensor} {c : ConvCfg} (hc : c.Typed) (h : SizedFor ks tw)
    (hck : chkGroup 0 apart tin tw tb c tout = some .ok) (h1 : ks = 1) : c.pt = 0 ∧ c.pb = 0 ∧ c.pl = 0 ∧ c.pr = 0 := by
  rw [← chkGroup_fix h] at hck
  obtain ⟨ih, iw, ic, kh, kw, kc, kn, bn, oh, ow, oc, -, -, -, -, -, -, -, -, -, -, -, hks, -, -, -, -, p, -⟩ := chkGroup_ok hck
  obtain ⟨k1, k2⟩ := hks (by omega)
  exact pads_zero hc (by omega) (by omega) p

/-- After a check with result `s`, the rest only runs when `s` is OK. -/
theorem after_check {chk : Option Status} {dst : Buf} {f g : Option (Status × Buf)} (h : chk = some .ok → f = g) :
    (chk.bind fun s => if s ≠ .ok then some (s, dst) else f) = (chk.bind fun s => if s ≠ .ok then some (s, dst) else g) := by
  rcases chk with _ | s
  · rfl
  · simp only [Option.bind_some]
    split
    · rfl
    · rename_i hs
      exact h (by rw [not_not.1 hs])

/-- The fixed-point convolution kernels `_k1x1`, `_k3x3`, `_k5x5` (any size `ks`). -/
theorem c83_conv_fx (m : Rnd) (aw : Nat) (ks : Int) (apart : Bool) (f : FxQ) (src wts bias : Buf) (tin tw tb : Tensor) (c : ConvCfg)
    (tout : Tensor) (hks : ks ≠ 0) (hc : c.Typed) :
    SpecialCase (SizedFor ks tw) (krnConvFx m aw ks apart f src wts bias tin tw tb c tout)
      (krnConvFx m aw 0 apart f src wts bias tin tw tb c tout) ∧
    SpecialCase (SizedFor ks tw) (krnDwFx m aw ks apart f src wts bias tin tw tb c tout)
      (krnDwFx m aw 0 apart f src wts bias tin tw tb c tout) := by
  have hfix : SizedFor ks tw → ∀ dw, chkConvFx dw ks apart f tin tw tb c tout = chkConvFx dw 0 apart f tin tw tb c tout := by
    intro h dw
    unfold chkConvFx
    rw [chkConv_fix h]
  have href : ¬ SizedFor ks tw → ∀ dw, ∃ s, s ≠ .ok ∧ chkConvFx dw ks apart f tin tw tb c tout = some s := by
    intro h dw
    unfold chkConvFx
    rw [chkConv_refuse hks h]
    split
    · exact ⟨_, by decide, rfl⟩
    · split <;> exact ⟨_, by decide, rfl⟩
  refine ⟨⟨fun h dst => ?_, fun h dst s dst' hr => ?_⟩, ⟨fun h dst => ?_, fun h dst s dst' hr => ?_⟩⟩
  · unfold krnConvFx
    simp only [Option.bind_eq_bind, Option.pure_def]
    rw [hfix h, prvHwcnFix_eq h]
    refine after_check fun hok => ?_
    have hp := chkConv_pads hc h (chkConvFx_ok hok).2.2
    simp only [noPad_eq hp]
  · obtain ⟨s', h1, h2⟩ := href h false
    unfold krnConvFx at hr
    simp only [Option.bind_eq_bind, Option.pure_def, h2, Option.bind_some, ne_eq, h1, not_false_eq_true, if_true, Option.some.injEq,
      Prod.mk.injEq] at hr
    exact ⟨hr.1 ▸ h1, hr.2.symm⟩
  · unfold krnDwFx
    simp only [Option.bind_eq_bind, Option.pure_def]
    rw [hfix h, prvHwcnFix_eq h]
    refine after_check fun hok => ?_
    have hp := chkConv_pads hc h (chkConvFx_ok hok).2.2
    simp only [noPad_eq hp]
  · obtain ⟨s', h1, h2⟩ := href h true
    unfold krnDwFx at hr
    simp only [Option.bind_eq_bind, Option.pure_def, h2, Option.bind_some, ne_eq, h1, not_false_eq_true, if_true, Option.some.injEq,
      Prod.mk.injEq] at hr
    exact ⟨hr.1 ▸ h1, hr.2.symm⟩

/-- The 8-bit asymmetric convolution kernels `_k1x1`, `_k3x3`, `_k5x5`. -/
theorem c83_conv_sa8 (m : Rnd) (full : Bool) (ks : Int) (apart : Bool) (q : Sa8Q) (src wts bias : Buf) (tin tw tb : Tensor) (c : ConvCfg)
    (tout : Tensor) (hks : ks ≠ 0) (hc : c.Typed) :
    SpecialCase (SizedFor ks tw) (krnConvSa8 m full ks apart q src wts bias tin tw tb c tout)
      (krnConvSa8 m full 0 apart q src wts bias tin tw tb c tout) ∧
    SpecialCase (SizedFor ks tw) (krnDwSa8 m full ks apart q src wts bias tin tw tb c tout)
      (krnDwSa8 m full 0 apart q src wts bias tin tw tb c tout) := by
  refine ⟨⟨fun h dst => ?_, fun h dst s dst' hr => ?_⟩, ⟨fun h dst => ?_, fun h dst s dst' hr => ?_⟩⟩
  · unfold krnConvSa8
    simp only [Option.bind_eq_bind, Option.pure_def]
    rw [chkConv_fix h, prvHwcnFix_eq h]
    refine after_check fun hok => ?_
    have hp := chkConv_pads hc h hok
    simp only [noPad_eq hp]
  · unfold krnConvSa8 at hr
    simp only [Option.bind_eq_bind, Option.pure_def, chkConv_refuse hks h, Option.bind_some, ne_eq, reduceCtorEq, not_false_eq_true, if_true,
      Option.some.injEq, Prod.mk.injEq] at hr
    exact ⟨hr.1 ▸ by decide, hr.2.symm⟩
  · unfold krnDwSa8
    simp only [Option.bind_eq_bind, Option.pure_def]
    rw [chkConv_fix h, prvHwcnFix_eq h]
    refine after_check fun hok => ?_
    have hp := chkConv_pads hc h hok
    simp only [noPad_eq hp]
  · unfold krnDwSa8 at hr
    simp only [Option.bind_eq_bind, Option.pure_def, chkConv_refuse hks h, Option.bind_some, ne_eq, reduceCtorEq, not_false_eq_true, if_true,
      Option.some.injEq, Prod.mk.injEq] at hr
    exact ⟨hr.1 ▸ by decide, hr.2.symm⟩

/-- The group convolution kernels `_k3x3`, `_k5x5`. -/
theorem c83_group (m : Rnd) (aw : Nat) (full : Bool) (ks : Int) (apart : Bool) (f : FxQ) (q : Sa8Q) (src wts bias : Buf)
    (tin tw tb : Tensor) (c : ConvCfg) (tout : Tensor) (hks : ks ≠ 0) (hc : c.Typed) :
    SpecialCase (SizedFor ks tw) (krnGroupFx m aw ks apart f src wts bias tin tw tb c tout)
      (krnGroupFx m aw 0 apart f src wts bias tin tw tb c tout) ∧
    SpecialCase (SizedFor ks tw) (krnGroupSa8 m full ks apart q src wts bias tin tw tb c tout)
      (krnGroupSa8 m full 0 apart q src wts bias tin tw tb c tout) := by
  have hfix : SizedFor ks tw → chkGroupFx ks apart f tin tw tb c tout = chkGroupFx 0 apart f tin tw tb c tout := by
    intro h
    unfold chkGroupFx
    rw [chkGroup_fix h]
  have href : ¬ SizedFor ks tw → ∃ s, s ≠ .ok ∧ chkGroupFx ks apart f tin tw tb c tout = some s := by
    intro h
    unfold chkGroupFx
    rw [chkGroup_refuse hks h]
    split
    · exact ⟨_, by decide, rfl⟩
    · split <;> exact ⟨_, by decide, rfl⟩
  have hok' : ∀ {ks}, chkGroupFx ks apart f tin tw tb c tout = some .ok → chkGroup ks apart tin tw tb c tout = some .ok := by
    intro ks h
    unfold chkGroupFx at h
    split at h
    · cases h
    · split at h
      · cases h
      · exact h
  refine ⟨⟨fun h dst => ?_, fun h dst s dst' hr => ?_⟩, ⟨fun h dst => ?_, fun h dst s dst' hr => ?_⟩⟩
  · unfold krnGroupFx
    simp only [Option.bind_eq_bind, Option.pure_def]
    rw [hfix h, prvHwcnFix_eq h]
    refine after_check fun hok => ?_
    have hp := chkGroup_pads hc h (hok' hok)
    simp only [noPad_eq hp]
  · obtain ⟨s', h1, h2⟩ := href h
    unfold krnGroupFx at hr
    simp only [Option.bind_eq_bind, Option.pure_def, h2, Option.bind_some, ne_eq, h1, not_false_eq_true, if_true, Option.some.injEq,
      Prod.mk.injEq] at hr
    exact ⟨hr.1 ▸ h1, hr.2.symm⟩
  · unfold krnGroupSa8
    simp only [Option.bind_eq_bind, Option.pure_def]
    rw [chkGroup_fix h, prvHwcnFix_eq h]
    refine after_check fun hok => ?_
    have hp := chkGroup_pads hc h hok
    simp only [noPad_eq hp]
  · unfold krnGroupSa8 at hr
    simp only [Option.bind_eq_bind, Option.pure_def, chkGroup_refuse hks h, Option.bind_some, ne_eq, reduceCtorEq, not_false_eq_true, if_true,
      Option.some.injEq, Prod.mk.injEq] at hr
    exact ⟨hr.1 ▸ by decide, hr.2.symm⟩

/-- The transposed convolution kernels `_k2x2_str2`, `_k4x4_str2`. -/
theorem c83_transpose (m : Rnd) (aw : Nat) (full : Bool) (ks : Int) (apart : Bool) (f : FxQ) (q : Sa8Q) (src wts bias : Buf)
    (tin tw tb : Tensor) (c : ConvCfg) (tout : Tensor) (hks : ks ≠ 0) :
    SpecialCase (SizedFor ks tw ∧ c.sh = 2 ∧ c.sw = 2) (krnTcFx m aw ks apart f src wts bias tin tw tb c tout)
      (krnTcFx m aw 0 apart f src wts bias tin tw tb c tout) ∧
    SpecialCase (SizedFor ks tw ∧ c.sh = 2 ∧ c.sw = 2) (krnTcSa8 m full ks apart q src wts bias tin tw tb c tout)
      (krnTcSa8 m full 0 apart q src wts bias tin tw tb c tout) := by
  have h0 : chkTcSpec 0 tw c = .ok := by unfold chkTcSpec; rw [if_pos rfl]
  have hfix : SizedFor ks tw ∧ c.sh = 2 ∧ c.sw = 2 → chkTcSpec ks tw c = .ok := by
    rintro ⟨⟨a, b⟩, c1, c2⟩
    unfold chkTcSpec
    rw [if_neg hks, if_neg (by simp [c1, c2]), if_neg (fun h => h ⟨b, a⟩)]
  have href : ¬ (SizedFor ks tw ∧ c.sh = 2 ∧ c.sw = 2) → chkTcSpec ks tw c ≠ .ok := by
    intro h
    unfold chkTcSpec
    rw [if_neg hks]
    split
    · decide
    · split
      · decide
      · rename_i a b
        exact absurd ⟨⟨(not_not.1 b).2, (not_not.1 b).1⟩, (not_not.1 a).2, (not_not.1 a).1⟩ h
  refine ⟨⟨fun h dst => ?_, fun h dst s dst' hr => ?_⟩, ⟨fun h dst => ?_, fun h dst s dst' hr => ?_⟩⟩
  · unfold krnTcFx chkTcFx
    simp only [hfix h, h0]
  · have hne : chkTcFx ks apart f tin tw tb c tout ≠ some .ok := by
      unfold chkTcFx
      split
      · simp
      · split
        · simp
        · rcases chkTc apart tin tw tb c tout with _ | s'
          · simp
          · simp only [Option.bind_some]
            split
            · rename_i hs; simpa using hs
            · simpa using href h
    unfold krnTcFx at hr
    simp only [Option.bind_eq_bind, Option.pure_def] at hr
    rw [Option.bind_eq_some_iff] at hr
    obtain ⟨s1, hs1, hr⟩ := hr
    have hs : s1 ≠ .ok := by rintro rfl; exact hne hs1
    rw [if_pos hs] at hr
    injection hr with hr
    injection hr with e1 e2
    exact ⟨e1 ▸ hs, e2.symm⟩
  · unfold krnTcSa8
    simp only [hfix h, h0]
  · unfold krnTcSa8 at hr
    simp only [Option.bind_eq_bind, Option.pure_def] at hr
    rw [Option.bind_eq_some_iff] at hr
    obtain ⟨s1, hs1, hr⟩ := hr
    split at hr
    · rename_i hs
      injection hr with hr
      injection hr with e1 e2
      exact ⟨e1 ▸ hs, e2.symm⟩
    · rw [Option.bind_eq_some_iff] at hr
      obtain ⟨s2, hs2, hr⟩ := hr
      split at hr
      · rename_i hs
        injection hr with hr
        injection hr with e1 e2
        exact ⟨e1 ▸ hs, e2.symm⟩
      · rw [if_pos (href h)] at hr
        injection hr with hr
        injection hr with e1 e2
        exact ⟨e1 ▸ href h, e2.symm⟩

/-- Weights of size 3 by 3 and 1 by 1; transposed convolution with weights of size 2 by 2. -/
def exWt3 : Tensor := { dims := [⟨3, 12⟩, ⟨3, 4⟩, ⟨2, 2⟩, ⟨2, 1⟩], cap := 72, es := 2 }
def exWt1 : Tensor := { dims := [⟨1, 4⟩, ⟨1, 4⟩, ⟨2, 2⟩, ⟨2, 1⟩], cap := 8, es := 2 }
def exWt2 : Tensor := { dims := [⟨2, 8⟩, ⟨2, 4⟩, ⟨2, 2⟩, ⟨2, 1⟩], cap := 32, es := 2 }
def exWts3 : Buf := Buf.ofList ((List.range 36).map fun (i : Nat) => (i : Int) - 15)
def exOut3 : Tensor := { dims := [⟨3, 8⟩, ⟨4, 2⟩, ⟨2, 1⟩], cap := 48, es := 2 }
def exOut6 : Tensor := { dims := [⟨6, 16⟩, ⟨8, 2⟩, ⟨2, 1⟩], cap := 192, es := 2 }

/-- A padded 3 by 3 convolution, a 1 by 1 convolution with stride and dilation, a 2 by 2 transposed convolution: accepted by the
specialised kernels; the kernel for 5 by 5 refuses. -/
example :
    let f : FxQ := { fi := 3, fw := 4, fb := 5, fo := 2, relu := .none }
    let c3 : ConvCfg := { sh := 1, sw := 1, pt := 1, pb := 1, pl := 1, pr := 1 }
    let c1 : ConvCfg := { sh := 1, sw := 2, dw := 3 }
    let c2 : ConvCfg := { sh := 2, sw := 2 }
    SizedFor 3 exWt3 ∧ SizedFor 1 exWt1 ∧ SizedFor 2 exWt2 ∧ ¬ SizedFor 5 exWt3 ∧ c3.Typed ∧ c1.Typed ∧
    (krnConvFx .convergent 64 3 true f (Buf.ofList exSrc) exWts3 (Buf.ofList [5, -6]) exIn exWt3 exBias c3 exOut3
      (Buf.ofList (List.replicate 24 99))).map (fun p => (p.1, p.2.toList)) =
      some (.ok, [-57, -68, -25, -39, 17, 8, 27, 22, 155, 148, 268, 263, 284, 287, 175, 179, 40, 42, 47, 53, 26, 38, -17, -8]) ∧
    (krnConvFx .convergent 64 5 true f (Buf.ofList exSrc) exWts3 (Buf.ofList [5, -6]) exIn exWt3 exBias c3 exOut3
      (Buf.ofList (List.replicate 24 99))).map (fun p => (p.1, p.2.toList)) = some (.shapeMismatch, List.replicate 24 99) ∧
    (krnConvFx .convergent 64 1 true f (Buf.ofList exSrc) exWts3 (Buf.ofList [5, -6]) exIn exWt1 exBias c1 exOut
      (Buf.ofList (List.replicate 8 99))).map (fun p => (p.1, p.2.toList)) = some (.ok, [68, 62, 43, 39, 19, 16, -6, -7]) ∧
    (krnTcFx .convergent 64 2 true f (Buf.ofList exSrc) exWts3 (Buf.ofList [5, -6]) exIn exWt2 exBias c2 exOut6
      (Buf.ofList (List.replicate 96 99))).map (fun p => p.1) = some .ok := by
  simp only [SizedFor]
  decide +kernel

/-! ## Pooling -/

/-- The operation whose multiplier is that of the elements it is given. -/
def CountOp.op (K : CountOp) : WinOp := fun src p rows clmns rs cs => K (rows * clmns) src p rows clmns rs cs

theorem poolPosFix_eq {fix : Int} {K : CountOp} {src : Buf} {g : Geo} {i o : Prv} {H W : Int} {c : Comp} {d : Buf}
    (h : fix > 0 → g.kw - c.right - c.left = fix) : poolPosFix fix K src g i o H W c d = poolPos K.op src g i o H W c d := by
  have e : (if fix > 0 then fix else g.kw - c.right - c.left) = g.kw - c.right - c.left := by
    split
    · rename_i hf; exact (h hf).symm
    · rfl
  unfold poolPosFix poolPos CountOp.op
  simp only [e]

theorem forRange_last {σ : Type} (n : Nat) (f : Nat → σ → Option σ) (P : σ → Prop) (hf : ∀ s s', f n s = some s' → P s') {s s' : σ}
    (h : forRange (n + 1) f s = some s') : P s' := by
  simp only [forRange] at h
  rw [Option.bind_eq_some_iff] at h
  obtain ⟨a, -, h⟩ := h
  exact hf a s' h

theorem forRange_keep {σ : Type} (n : Nat) (f f' : Nat → σ → Option σ) (P : σ → Prop)
    (hf : ∀ k s, P s → f k s = f' k s) (hp : ∀ k s s', P s → f' k s = some s' → P s') {s : σ} (h0 : P s) :
    forRange n f s = forRange n f' s ∧ ∀ s', forRange n f' s = some s' → P s' := by
  induction n with
  | zero => exact ⟨rfl, fun s' h => by simp only [forRange, Option.some.injEq] at h; exact h ▸ h0⟩
  | succ n ih =>
    simp only [forRange]
    rw [ih.1]
    rcases hr : forRange n f' s with _ | a
    · exact ⟨rfl, fun s' h => by cases h⟩
    · have ha := ih.2 a hr
      simp only [Option.bind_some]
      exact ⟨hf n a ha, fun s' h => hp n a s' ha h⟩

theorem poolPadFix_eq {fix : Int} {K : CountOp} {src : Buf} {rb re ce : Int} {g : Geo} {i o : Prv} {d : Buf}
    (h1 : 1 ≤ g.kw) (hf : fix > 0 → g.kw = fix)
    (hin : g.kw < ce → 0 ≤ (g.kw - 1) * g.sw - g.pl ∧ (g.kw - 1) * g.sw - g.pl + g.kw ≤ i.width) :
    poolPadFix fix K src rb re 0 ce g i o d = poolPad K.op src rb re 0 ce g i o d := by
  unfold poolPadFix poolPad
  congr 1
  refine forRange_congr (fun h _ => funext fun s => ?_) _
  have e : ∀ (H W : Int) (c : Comp) (d : Buf), poolPosFix 0 K src g i o H W c d = poolPos K.op src g i o H W c d :=
    fun H W c d => poolPosFix_eq (by omega)
  simp only [e, Int.zero_add, Int.sub_zero]
  by_cases hbig : g.kw < ce
  · have hm : min g.kw ce = g.kw := by omega
    have hm0 : max 0 g.kw = g.kw := by omega
    rw [hm, hm0]
    obtain ⟨n, hn⟩ : ∃ n : Nat, g.kw.toNat = n + 1 := ⟨g.kw.toNat - 1, by omega⟩
    rw [hn]
    rcases hr : forRange (n + 1) (fun (w : Nat) (s : Comp × Buf) =>
        (poolPos K.op src g i o (rb + h) w (validArea (rb + h) w i.height i.width g.kh g.kw g.sh g.sw g.pl g.pt 1 1) s.2).map
          fun d => (validArea (rb + h) w i.height i.width g.kh g.kw g.sh g.sw g.pl g.pt 1 1, d)) s with _ | a
    · rfl
    · simp only [Option.bind_some]
      have ha : a.1 = validArea (rb + h) n i.height i.width g.kh g.kw g.sh g.sw g.pl g.pt 1 1 := by
        refine forRange_last n _ (fun a => a.1 = _) ?_ hr
        intro s s' hs
        simp only [Option.map_eq_some_iff] at hs
        obtain ⟨d', -, rfl⟩ := hs
        rfl
      have hw : (n : Int) = g.kw - 1 := by omega
      obtain ⟨l1, l2⟩ := hin hbig
      have hkept : g.kw - a.1.right - a.1.left = g.kw := by
        rw [ha]
        simp only [validArea, and_self, if_true, hw]
        omega
      refine (forRange_keep _ _ _ (fun s : Comp × Buf => s.1 = a.1) ?_ ?_ rfl).1
      · intro k s hs
        rw [poolPosFix_eq (fun h => by rw [hs, hkept]; exact hf h)]
      · intro k s s' hs hk
        simp only [Option.map_eq_some_iff] at hk
        obtain ⟨d', -, rfl⟩ := hk
        exact hs
  · have hm : min g.kw ce = ce := by omega
    have hm0 : (ce - max 0 ce).toNat = 0 := by omega
    rw [hm, hm0]
    rfl

/-- One axis: input size `n`, kernel `k`, stride `s`, padding `p` before and `q` behind the input, output `o`. -/
structure FixAxis (n k s p q o : Int) : Prop where
  hn : n = (o - 1) * s + k - p - q
  p0 : 0 ≤ p
  pk : p < k
  q0 : 0 ≤ q
  qk : q < k
  s1 : 1 ≤ s

theorem FixAxis.flip {n k s p q o : Int} (h : FixAxis n k s p q o) : FixAxis n k s q p o :=
  ⟨by have := h.hn; omega, h.q0, h.qk, h.p0, h.pk, h.s1⟩

/-- The column `k - 1` of a border area that is wider than the kernel is not clipped. -/
theorem FixAxis.inner {n k s p q o ce : Int} (a : FixAxis n k s p q o) (hce : ce ≤ max (ceilDiv p s) (o - ceilDiv q s)) (hk : k < ce) :
    0 ≤ (k - 1) * s - p ∧ (k - 1) * s - p + k ≤ n := by
  obtain ⟨hn, p0, pk, q0, qk, s1⟩ := a
  have h1 : ceilDiv p s ≤ p := ceilDiv_le_self p0 (by omega)
  have h2 := (ceilDiv_le_iff (i := o - k) q0 (b := s) (by omega)).1 (by omega)
  have h3 : (k - 1) * 1 ≤ (k - 1) * s := Int.mul_le_mul_of_nonneg_left s1 (by omega)
  have e : (o - k) * s = (o - 1) * s - (k - 1) * s := by ring
  constructor <;> omega

theorem poolWrapperFix_eq {fix : Int} {K : CountOp} {src : Buf} {g : Geo} {i o : Prv} {d : Buf}
    (hf : fix > 0 → g.kh = fix ∧ g.kw = fix)
    (ah : FixAxis i.height g.kh g.sh g.pt g.pb o.height) (aw : FixAxis i.width g.kw g.sw g.pl g.pr o.width) :
    poolWrapperFix fix K src g i o d = poolWrapper K.op src g i o d := by
  have k1 : 1 ≤ g.kh := by have := ah.p0; have := ah.pk; omega
  have k2 : 1 ≤ g.kw := by have := aw.p0; have := aw.pk; omega
  have en : ∀ rb re cb ce d (g' : Geo), g'.kh = g.kh → g'.kw = g.kw →
      poolNoPad (whole K g) src rb re cb ce g' i o d = poolNoPad K.op src rb re cb ce g' i o d := by
    intro rb re cb ce d g' e1 e2
    unfold poolNoPad whole CountOp.op
    rw [e1, e2]
  have et : ∀ d, poolTopFix fix K src g i o d = poolTop K.op src g i o d := by
    intro d
    unfold poolTopFix poolTop
    split
    · exact poolPadFix_eq k2 (fun h => (hf h).2) (aw.inner (le_refl _))
    · rfl
  have er : ∀ d, poolRightFix fix K src g i o d = poolRight K.op src g i o d := by
    intro d
    unfold poolRightFix poolRight
    split
    · exact poolPadFix_eq k1 (fun h => (hf h).1) (ah.inner (le_max_right _ _))
    · rfl
  have eb : ∀ d, poolBottomFix fix K src g i o d = poolBottom K.op src g i o d := by
    intro d
    unfold poolBottomFix poolBottom
    split
    · rw [Int.sub_self o.width]
      exact poolPadFix_eq k2 (fun h => (hf h).2) (aw.flip.inner (le_max_right _ _))
    · rfl
  have el : ∀ d, poolLeftFix fix K src g i o d = poolLeft K.op src g i o d := by
    intro d
    unfold poolLeftFix poolLeft
    split
    · rw [Int.sub_self o.height]
      exact poolPadFix_eq k1 (fun h => (hf h).1) (ah.flip.inner (le_max_right _ _))
    · rfl
  unfold poolWrapperFix poolWrapper
  split
  · unfold poolHwcPadFix poolHwcPad
    simp only [en _ _ _ _ _ g rfl rfl, et, er, eb, el]
  · exact en _ _ _ _ _ _ rfl rfl

/-- The sizes, with padding and stride, fit into 32 bits, and the configuration fields are bytes. -/
structure PoolFits (tin : Tensor) (g : Geo) (tout : Tensor) : Prop where
  bytes : ∀ x ∈ [g.kh, g.kw, g.sh, g.sw, g.pt, g.pb, g.pl, g.pr], 0 ≤ x ∧ x < 256
  input : (0 ≤ tin.shape.getD 0 0 ∧ tin.shape.getD 0 0 + g.pt + g.pb < 2 ^ 31) ∧
    0 ≤ tin.shape.getD 1 0 ∧ tin.shape.getD 1 0 + g.pl + g.pr < 2 ^ 31
  output : (0 ≤ tout.shape.getD 0 0 ∧ tout.shape.getD 0 0 * g.sh + g.kh < 2 ^ 31) ∧
    0 ≤ tout.shape.getD 1 0 ∧ tout.shape.getD 1 0 * g.sw + g.kw < 2 ^ 31

theorem pool_axis {n k s p q o : Int} (hb : (0 ≤ k ∧ k < 256) ∧ (0 ≤ s ∧ s < 256) ∧ (0 ≤ p ∧ p < 256) ∧ (0 ≤ q ∧ q < 256))
    (hn : 0 ≤ n ∧ n + p + q < 2 ^ 31) (ho : 0 ≤ o ∧ o * s + k < 2 ^ 31) (hpk : p < k) (hqk : q < k) (hs : s > 0)
    (hr : wrap 32 (o * s + k - s) ≤ wrap 32 (n + p + q)) :
    FixAxis (if (o * s + k - s) - n - p < 0 then n + ((o * s + k - s) - n - p) else n) k s p (max ((o * s + k - s) - n - p) 0) o := by
  have hos0 : 0 ≤ o * s := Int.mul_nonneg (by omega) (by omega)
  have e : (o - 1) * s = o * s - s := by ring
  have q1 : InRange 32 (o * s + k - s) := by unfold InRange lo hi; omega
  have q2 : InRange 32 (n + p + q) := by unfold InRange lo hi; omega
  rw [wrap_of_inRange (by decide) q1, wrap_of_inRange (by decide) q2] at hr
  refine ⟨?_, by omega, hpk, by omega, by omega, by omega⟩
  rw [e]
  split <;> omega

theorem poolHwcFix_eq {ks : Int} {K : CountOp} {src : Buf} {g : Geo} {tin tout : Tensor} {d : Buf} (h0 : ks ≥ 0)
    (hf : ks ≠ 0 → g.kh = ks ∧ g.kw = ks) (hc : chkPool tin g tout = some .ok) (F : PoolFits tin g tout) :
    poolHwcFix ks K src g tin tout d = poolHwc K.op src g tin tout d := by
  obtain ⟨ih, iw, ic, oh, ow, oc, e1, e2, -, -, -, ⟨p1, p2, p3, p4, p5, p6⟩, r1, r2⟩ := chkPool_ok hc
  have hg : (if ks ≠ 0 then { g with kh := ks, kw := ks } else g) = g := by
    split
    · rename_i hk
      obtain ⟨a, b⟩ := hf hk
      cases g
      simp only at a b
      subst a
      subst b
      rfl
    · rfl
  unfold poolHwcFix poolHwc
  simp only [prvHwc, e1, e2, Option.bind_eq_bind, Option.bind_some, hg]
  have hb := F.bytes
  simp only [List.forall_mem_cons, List.not_mem_nil, false_implies, implies_true, and_true] at hb
  obtain ⟨b1, b2, b3, b4, b5, b6, b7, b8⟩ := hb
  have s1 := F.input
  have s2 := F.output
  simp only [Tensor.shape, e1, e2, List.map_cons, List.map_nil, List.getD_cons_zero, List.getD_cons_succ] at s1 s2
  refine poolWrapperFix_eq (fun h => hf (by omega)) ?_ ?_
  · exact pool_axis ⟨b1, b3, b5, b6⟩ s1.1 s2.1 p3 p4 p5 r1
  · exact pool_axis ⟨b2, b4, b7, b8⟩ s1.2 s2.2 p1 p2 p6 r2

theorem chkPool_fix {ks : Int} {tin tout : Tensor} {g : Geo} (h : g.kh = ks ∧ g.kw = ks) : chkPoolFix ks tin g tout = chkPool tin g tout := by
  unfold chkPoolFix
  rw [if_neg (fun h' => h'.2 h)]

theorem chkPool_refuse {ks : Int} {tin tout : Tensor} {g : Geo} (h0 : ks ≠ 0) (h : ¬ (g.kh = ks ∧ g.kw = ks)) :
    chkPoolFix ks tin g tout = some .shapeMismatch := by
  unfold chkPoolFix
  rw [if_pos ⟨h0, h⟩]

theorem count_max : CountOp.op (fun _ => reduceMax) = reduceMax := rfl

theorem count_avg (m : Rnd) (w aw : Nat) (zp : Int) (ms : Int → Int × Int) : CountOp.op (avgCountOp m w aw zp ms) = avgOp m w aw zp ms := rfl

/-- The pooling kernels `_k2x2`, `_k3x3`. -/
theorem c83_pool (ks : Int) (m : Rnd) (w b : Nat) (inFrac outFrac : Int) (qi qo : SaQ) (src : Buf) (tin : Tensor) (g : Geo) (tout : Tensor)
    (hks : 0 < ks) (F : PoolFits tin g tout) :
    SpecialCase (g.kh = ks ∧ g.kw = ks) (krnMaxpoolFix ks src tin g tout) (krnMaxpool src tin g tout) ∧
    SpecialCase (g.kh = ks ∧ g.kw = ks) (krnAvepoolFxFix ks m w inFrac outFrac src tin g tout)
      (krnAvepoolFx m w inFrac outFrac src tin g tout) ∧
    SpecialCase (g.kh = ks ∧ g.kw = ks) (krnAvepoolSa8Fix ks m b qi qo src tin g tout) (krnAvepoolSa8 m b qi qo src tin g tout) := by
  refine ⟨⟨fun h dst => ?_, fun h dst s dst' hr => ?_⟩, ⟨fun h dst => ?_, fun h dst s dst' hr => ?_⟩,
    ⟨fun h dst => ?_, fun h dst s dst' hr => ?_⟩⟩
  · unfold krnMaxpoolFix krnMaxpool
    simp only [Option.bind_eq_bind, Option.pure_def]
    rw [chkPool_fix h]
    refine after_check fun hok => ?_
    rw [poolHwcFix_eq (by omega) (fun _ => h) hok F, count_max]
  · unfold krnMaxpoolFix at hr
    simp only [Option.bind_eq_bind, Option.pure_def, chkPool_refuse (by omega : ks ≠ 0) h, Option.bind_some, ne_eq, reduceCtorEq,
      not_false_eq_true, if_true, Option.some.injEq, Prod.mk.injEq] at hr
    exact ⟨hr.1 ▸ by decide, hr.2.symm⟩
  · unfold krnAvepoolFxFix krnAvepoolFx
    simp only [Option.bind_eq_bind, Option.pure_def]
    rw [chkPool_fix h]
    refine after_check fun hok => ?_
    rw [poolHwcFix_eq (by omega) (fun _ => h) hok F, count_avg]
  · unfold krnAvepoolFxFix at hr
    simp only [Option.bind_eq_bind, Option.pure_def, chkPool_refuse (by omega : ks ≠ 0) h, Option.bind_some, ne_eq, reduceCtorEq,
      not_false_eq_true, if_true, Option.some.injEq, Prod.mk.injEq] at hr
    exact ⟨hr.1 ▸ by decide, hr.2.symm⟩
  · unfold krnAvepoolSa8Fix krnAvepoolSa8
    rw [chkPool_fix h]
    refine after_check fun hok => ?_
    simp only [poolHwcFix_eq (by omega) (fun _ => h) hok F, count_avg]
  · unfold krnAvepoolSa8Fix at hr
    simp only [chkPool_refuse (by omega : ks ≠ 0) h, Option.bind_some, ne_eq, reduceCtorEq,
      not_false_eq_true, if_true, Option.some.injEq, Prod.mk.injEq] at hr
    exact ⟨hr.1 ▸ by decide, hr.2.symm⟩

/-- Hypotheses met: a 3 by 6 plane, window 3 by 3, padding on all sides, so that the border areas are wider than the window. -/
example :
    let t : Tensor := { dims := [⟨3, 6⟩, ⟨6, 1⟩, ⟨1, 1⟩], cap := 18, es := 1 }
    let g : Geo := { kh := 3, kw := 3, sh := 1, sw := 1, pt := 1, pb := 1, pl := 1, pr := 1 }
    let src := Buf.ofList [1, 2, 3, 4, 5, 6, -1, -2, -3, -4, -5, -6, 7, 0, 9, 0, 11, 0]
    let dst := Buf.ofList (List.replicate 18 99)
    PoolFits t g t ∧
    (krnMaxpoolFix 3 src t g t dst).map (fun p => (p.1, p.2.toList)) =
      some (.ok, [2, 3, 4, 5, 6, 6, 7, 9, 9, 11, 11, 11, 7, 9, 9, 11, 11, 11]) ∧
    (krnAvepoolFxFix 3 .convergent 8 3 2 src t g t dst).map (fun p => (p.1, p.2.toList)) =
      some (.ok, [0, 0, 0, 0, 0, 0, 1, 1, 0, 1, 1, 1, 0, 1, 0, 1, 0, 0]) ∧
    (krnMaxpoolFix 2 src t g t dst).map (fun p => (p.1, p.2.toList)) = some (.shapeMismatch, List.replicate 18 99) := by
  refine ⟨⟨by decide, by decide, by decide⟩, ?_⟩
  decide +kernel

end Mli
