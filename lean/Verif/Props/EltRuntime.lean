import Verif.Lemmas.EltRuntime

/-! # C68: run-time element-wise kernels tile by tile -/

namespace Mli.Rt

open Mli Mli.Iter Mli.Spec

/-- What the operations mean for integer elements of `w` bits: sum and difference limited to the range, exact product, maximum and minimum. -/
def eltMeaning (op : EltOp) (w : Nat) (a b : Int) : Int :=
  match op with
  | .add => clamp w (a + b)
  | .sub => clamp w (a - b)
  | .mul => a * b
  | .max => max a b
  | .min => min a b

/-- The operation on elements, with all fractional bits zero: exact. -/
theorem c68_element (m : Rnd) (o : EltObj) (hs : o.supported = true) (hf : o.op = .mul ∨ (o.fl = 0 ∧ o.fr = 0 ∧ o.fo = 0)) (a b : Int)
    (ha : InRange o.wi a) (hb : InRange o.wi b) : o.fn m a b = eltMeaning o.op o.wi a b := by
  obtain ⟨op, wi, wo, left, right, out, tl, tr, tout, fl, fr, fo⟩ := o
  simp only at *
  unfold EltObj.supported at hs
  unfold EltObj.fn
  simp only at *
  have hz : ∀ (w : Nat) (x : Int), asrRndFx m w x 0 = x := fun w x => by simp [asrRndFx]
  by_cases e : op = .mul
  · subst e
    simp only [if_true, Bool.and_eq_true, Bool.or_eq_true, decide_eq_true_eq] at hs ⊢
    obtain ⟨hw, rfl⟩ := hs
    have h16 : ∀ x, InRange wi x → -32768 ≤ x ∧ x ≤ 32767 := by
      intro x hx
      rcases hw with rfl | rfl <;> simp [InRange, lo, hi] at hx <;> omega
    have h1 := h16 a ha
    have h2 := h16 b hb
    have hp : -(2 ^ 31 : Int) ≤ a * b ∧ a * b ≤ 2 ^ 31 - 1 := by constructor <;> nlinarith
    have r32 : InRange 32 (a * b) := by simp [InRange, lo, hi]; omega
    simp only [eltFx, eltMeaning, hz]
    rw [castFx_eq m (by decide) (by decide) (inRange_mono (by decide) r32), hz, clamp_of_inRange r32]
  · obtain ⟨rfl, rfl, rfl⟩ : fl = 0 ∧ fr = 0 ∧ fo = 0 := by tauto
    simp only [e, if_false, Bool.and_eq_true, Bool.or_eq_true, decide_eq_true_eq] at hs ⊢
    obtain ⟨hw, rfl⟩ := hs
    have hw' : 2 ≤ wo ∧ wo ≤ 32 := by omega
    have a32 := inRange_mono hw'.2 ha
    have b32 := inRange_mono hw'.2 hb
    cases op with
    | mul => exact absurd rfl e
    | add =>
      simp only [eltFx, eltParamsFx, eltMeaning, sub_zero, min_self, hz]
      rw [show min (max (0 : Int) 0) (2 * (wo : Int) - 1) = 0 by omega, addFx_eq a32 b32,
        castFx_eq m hw'.1 (by omega) (inRange_mono (by decide) (clamp_inRange 32 _)), hz, clamp_clamp hw'.2]
    | sub =>
      simp only [eltFx, eltParamsFx, eltMeaning, sub_zero, min_self, hz]
      rw [show min (max (0 : Int) 0) (2 * (wo : Int) - 1) = 0 by omega, subFx_eq a32 b32,
        castFx_eq m hw'.1 (by omega) (inRange_mono (by decide) (clamp_inRange 32 _)), hz, clamp_clamp hw'.2]
    | max =>
      simp only [eltFx, eltParamsFx, eltMeaning, sub_zero, hz]
      rw [show min (0 : Int) ((wo : Int) - 1) = 0 by omega]
      have hr : InRange wo (max a b) := by rcases max_choice a b with h | h <;> rw [h] <;> assumption
      have em : maxFx a b = max a b := by unfold maxFx; split <;> omega
      rw [em, wrap_of_inRange (by omega) hr]
      simp [castFxSame, hz]
    | min =>
      simp only [eltFx, eltParamsFx, eltMeaning, sub_zero, hz]
      rw [show min (0 : Int) ((wo : Int) - 1) = 0 by omega]
      have hr : InRange wo (min a b) := by rcases min_choice a b with h | h <;> rw [h] <;> assumption
      have em : minFx a b = min a b := by unfold minFx; split <;> omega
      rw [em, wrap_of_inRange (by omega) hr]
      simp [castFxSame, hz]

/-- C68: the constructor succeeds, and the caller's loop over all tiles (copy the input tiles, `Issue`, copy the output tile, `Update`) ends with status
OK and with the operation applied to every element of the whole tensors in the output tensor; nothing else in the output buffer changes.  `l` and `r` are
the inputs, each tiled as the output or a scalar; the output tile may replace an input tile in local memory.

Partial: the iterators go through the dimensions in their own order, the element parameters of the tile tensors are zero (the constructor does not set
them), and the scalar has its final value when the kernel is created; see the violations below. -/
theorem c68_tiled_partial (m : Rnd) (op : EltOp) (wi wo : Nat) (shape tiles : List Int) (skew : Int) (l r : EltIn) (loc : List Int) (bo : Int)
    (gos : List Int) (mem gout : Buf) (fl fr fo : Int) (h : EltOk shape tiles skew l r loc bo gos mem gout)
    (hsup : if op = .mul then (wi = 8 ∨ wi = 16) ∧ wo = 32 else (wi = 8 ∨ wi = 16 ∨ wi = 32) ∧ wo = wi)
    (hf : op = .mul ∨ (fl = 0 ∧ fr = 0 ∧ fo = 0))
    (hl : ∀ x, InShape shape x → InRange wi (l.val mem x)) (hr : ∀ x, InShape shape x → InRange wi (r.val mem x)) :
    let out := TIt.start (tileCfg shape tiles (List.range shape.length) skew) shape loc
    ∃ o s, EltObj.new op wi wo l.it r.it out l.base r.base bo fl fr fo mem = some o ∧
      EltHost.run m l.glob r.glob gos (totalCount out.cfg).toNat ⟨o, mem, gout, .ok⟩ = some s ∧ s.status = .ok ∧
      Result shape gos (fun x => eltMeaning op wi (l.val mem x) (r.val mem x)) gout s.gout := by
  intro out
  obtain ⟨o, h1, ⟨h2, h3, h4, h5, h6, h7⟩, h8⟩ := elt_run (m := m) (op := op) (wi := wi) (wo := wo) (fl := fl) (fr := fr) (fo := fo) h
  have hs : o.supported = true := by
    unfold EltObj.supported
    rw [h2, h3, h4]
    by_cases e : op = .mul
    · rw [if_pos e] at hsup ⊢
      simpa using hsup
    · rw [if_neg e] at hsup ⊢
      obtain ⟨a, b⟩ := hsup
      simp only [Bool.and_eq_true, Bool.or_eq_true, decide_eq_true_eq]
      exact ⟨by tauto, b⟩
  obtain ⟨s, s1, s2, s3⟩ := h8 hs
  refine ⟨o, s, h1, s1, s2, s3.size, fun x hx => ?_, s3.frame⟩
  rw [s3.elem x hx, c68_element m o hs (by rw [h2, h5, h6, h7]; exact hf) _ _ (by rw [h3]; exact hl x hx) (by rw [h3]; exact hr x hx), h2, h3]

/-- C68, status: `Issue` succeeds only for the supported element sizes, and for others it changes nothing. -/
theorem c68_status (m : Rnd) (o : EltObj) (mem mem' : Buf) (st : Status) (h : o.issue m mem = some (st, mem')) :
    (st = .ok ↔ if o.op = .mul then (o.wi = 8 ∨ o.wi = 16) ∧ o.wo = 32 else (o.wi = 8 ∨ o.wi = 16 ∨ o.wi = 32) ∧ o.wo = o.wi) ∧
    (st ≠ .ok → st = .notSupported ∧ mem' = mem) := by
  have hs : o.supported = true ↔ if o.op = .mul then (o.wi = 8 ∨ o.wi = 16) ∧ o.wo = 32 else (o.wi = 8 ∨ o.wi = 16 ∨ o.wi = 32) ∧ o.wo = o.wi := by
    unfold EltObj.supported
    split <;> simp [or_assoc]
  rw [← hs]
  unfold EltObj.issue at h
  split at h
  · rename_i c
    cases he : eltwiseRun (o.fn m) o.tl o.tr o.tout mem with
    | none => rw [he] at h; simp at h
    | some d =>
      rw [he] at h
      simp only [Option.map_some, Option.some.injEq, Prod.mk.injEq] at h
      obtain ⟨rfl, rfl⟩ := h
      exact ⟨by simp [c], fun c => absurd rfl c⟩
  · rename_i c
    simp only [Option.some.injEq, Prod.mk.injEq] at h
    obtain ⟨rfl, rfl⟩ := h
    exact ⟨by simp [c], fun _ => ⟨rfl, rfl⟩⟩

theorem allIn {ns : List Int} {P : List Int → Prop} (h : ∀ y ∈ rowMajor ns, P y) : ∀ y, InShape ns y → P y := fun y hy => h y (mem_rowMajor.mpr hy)

/-! ### A case -/

/-- A 3x5 tensor in tiles of 2x2 (six tiles, smaller ones at the borders). -/
def exLeft : EltIn :=
  ⟨TIt.start (tileCfg [3, 5] [2, 2] [0, 1] 0) [3, 5] [2, 1], 0, ⟨Buf.ofList [1, 2, 3, 4, 5, 6, 7, 8, 9, 10, 11, 12, 13, 14, 100], [5, 1]⟩⟩

def exRight : EltIn :=
  ⟨TIt.start (tileCfg [3, 5] [2, 2] [0, 1] 0) [3, 5] [3, 1], 4, ⟨Buf.ofList [5, 5, 5, 5, 5, 6, 6, 6, 6, 6, 7, 7, 7, 7, 70], [5, 1]⟩⟩

/-- A scalar at address 9. -/
def exScalar : EltIn := ⟨TIt.start (tileCfg [1, 1] [1, 1] [0, 1] 0) [1, 1] [1, 1], 9, ⟨Buf.ofList [], []⟩⟩

def exMem : Buf := Buf.ofList [0, 0, 0, 0, 0, 0, 0, 0, 0, 30]

def exOut : Buf := Buf.ofList [0, 0, 0, 0, 0, 0, 0, 0, 0, 0, 0, 0, 0, 0, 0, -1]

theorem exTiling : TilingOk [3, 5] [2, 2] [0, 1] 0 := by
  refine ⟨rfl, by decide, by decide, by decide, ?_⟩
  intro i hi
  have : i = 0 ∨ i = 1 := by simp at hi; omega
  rcases this with rfl | rfl <;> exact ⟨by decide, by decide, by decide⟩

theorem exLeft_ok : exLeft.Ok [3, 5] [2, 2] 0 exMem :=
  ⟨fun h => absurd h (by decide), fun _ => rfl, fun _ => ⟨rfl, rfl, allIn (by decide), fun y z hy hz =>
    allIn (P := fun y => ∀ z ∈ rowMajor [2, 2], offset exLeft.it.strides y = offset exLeft.it.strides z → y = z) (by decide) y hy z (mem_rowMajor.mpr hz)⟩,
    fun _ => allIn (by decide)⟩

theorem exRight_ok : exRight.Ok [3, 5] [2, 2] 0 exMem :=
  ⟨fun h => absurd h (by decide), fun _ => rfl, fun _ => ⟨rfl, rfl, allIn (by decide), fun y z hy hz =>
    allIn (P := fun y => ∀ z ∈ rowMajor [2, 2], offset exRight.it.strides y = offset exRight.it.strides z → y = z) (by decide) y hy z (mem_rowMajor.mpr hz)⟩,
    fun _ => allIn (by decide)⟩

theorem exScalar_ok : exScalar.Ok [3, 5] [2, 2] 0 exMem :=
  ⟨fun _ => by decide, fun h => absurd h (by decide), fun h => absurd h (by decide), fun h => absurd h (by decide)⟩

/-- Two tensors, with the output tiles in place of those of the first. -/
theorem exTwo : EltOk [3, 5] [2, 2] 0 exLeft exRight [2, 1] 0 [5, 1] exMem exOut where
  tiling := exTiling
  rank := by decide
  small := by decide
  left := exLeft_ok
  right := exRight_ok
  shapes := Or.inl rfl
  place := exLeft_ok.place (by decide)
  inputs := fun _ _ y z hy hz => allIn (P := fun y => ∀ z ∈ rowMajor [2, 2], exLeft.base + offset exLeft.it.strides y ≠
    exRight.base + offset exRight.it.strides z) (by decide) y hy z (mem_rowMajor.mpr hz)
  outLeft := fun _ y z hy hz e => (exLeft_ok.place (by decide)).inj y z hy hz (by simpa [exLeft, TIt.start] using e)
  outRight := fun _ y z hy hz => allIn (P := fun y => ∀ z ∈ rowMajor [2, 2], exRight.base + offset exRight.it.strides y =
    0 + offset [2, 1] z → y = z) (by decide) y hy z (mem_rowMajor.mpr hz)
  gin := allIn (by decide)
  ginj := fun x y hx hy => allIn (P := fun x => ∀ y ∈ rowMajor [3, 5], offset [5, 1] x = offset [5, 1] y → x = y) (by decide) x hx y (mem_rowMajor.mpr hy)

/-- A tensor and a scalar. -/
theorem exOne : EltOk [3, 5] [2, 2] 0 exLeft exScalar [2, 1] 4 [5, 1] exMem exOut where
  tiling := exTiling
  rank := by decide
  small := by decide
  left := exLeft_ok
  right := exScalar_ok
  shapes := Or.inl rfl
  place := ⟨rfl, rfl, allIn (by decide), (exLeft_ok.place (by decide)).inj⟩
  inputs := fun _ h => absurd h (by decide)
  outLeft := fun _ y z hy hz => allIn (P := fun y => ∀ z ∈ rowMajor [2, 2], exLeft.base + offset exLeft.it.strides y =
    4 + offset [2, 1] z → y = z) (by decide) y hy z (mem_rowMajor.mpr hz)
  outRight := fun h => absurd h (by decide)
  gin := allIn (by decide)
  ginj := exTwo.ginj

/-- The run of the case, as computed by the model: the sum of 100 and 70 is limited to 127. -/
example :
    (EltObj.new .add 8 8 exLeft.it exRight.it (TIt.start (tileCfg [3, 5] [2, 2] [0, 1] 0) [3, 5] [2, 1]) 0 4 0 0 0 0 exMem).bind (fun o =>
      (EltHost.run .up exLeft.glob exRight.glob [5, 1] 6 ⟨o, exMem, exOut, .ok⟩).map fun s =>
        (s.status, (List.range 16).map fun i : Nat => s.gout.get i)) =
    some (.ok, [6, 7, 8, 9, 10, 12, 13, 14, 15, 16, 18, 19, 20, 21, 127, -1]) := by decide +kernel

example : ∃ o s, EltObj.new .mul 8 32 exLeft.it exScalar.it (TIt.start (tileCfg [3, 5] [2, 2] [0, 1] 0) [3, 5] [2, 1]) 0 9 4 1 2 3 exMem = some o ∧
    EltHost.run .up exLeft.glob exScalar.glob [5, 1] 6 ⟨o, exMem, exOut, .ok⟩ = some s ∧ s.gout.get 14 = 3000 := by
  obtain ⟨o, s, h1, h2, -, h3⟩ := c68_tiled_partial .up .mul 8 32 [3, 5] [2, 2] 0 exLeft exScalar [2, 1] 4 [5, 1] exMem exOut 1 2 3 exOne
    (by decide) (Or.inl rfl) (allIn (by decide)) (allIn (by decide))
  exact ⟨o, s, h1, h2, (h3.elem [2, 4] (by decide)).trans (by decide)⟩

/-! ### Violations -/

/-- **Violation**: with an iteration order other than that of the dimensions the offsets of the tiles are given in the order of the iteration.  The
caller's loop moves other elements than those of the tile: here element 3 is never written, although all calls succeed. -/
theorem c68_order_violated :
    let it := TIt.start (tileCfg [2, 2] [1, 2] [1, 0] 0) [2, 2] [2, 1]
    let g : Glob := ⟨Buf.ofList [1, 2, 3, 4], [2, 1]⟩
    (EltObj.new .add 8 8 it it it 0 2 4 0 0 0 (Buf.ofList [0, 0, 0, 0, 0, 0])).bind (fun o =>
      (EltHost.run .up g g [2, 1] (totalCount it.cfg).toNat ⟨o, Buf.ofList [0, 0, 0, 0, 0, 0], Buf.ofList [0, 0, 0, 0], .ok⟩).map fun s =>
        (s.status, (List.range 4).map fun i : Nat => s.gout.get i)) = some (.ok, [2, 4, 6, 0]) := by decide +kernel

/-- **Violation**: ADD reads the numbers of fractional bits of the tile tensors, which the constructor does not set: with `4` in the memory that the
object is created in, the result of `2 + 2` is 64. -/
theorem c68_fraction_violated :
    let it := TIt.start (tileCfg [2] [2] [0] 0) [2] [1]
    let g : Glob := ⟨Buf.ofList [1, 2], [1]⟩
    ∀ fo, fo = 0 ∨ fo = 4 →
    (EltObj.new .add 8 8 it it it 0 2 4 0 0 fo (Buf.ofList [0, 0, 0, 0, 0, 0])).bind (fun o =>
      (EltHost.run .up g g [1] 1 ⟨o, Buf.ofList [0, 0, 0, 0, 0, 0], Buf.ofList [0, 0], .ok⟩).map fun s =>
        (s.status, (List.range 2).map fun i : Nat => s.gout.get i)) = some (.ok, if fo = 0 then [2, 4] else [32, 64]) := by
  intro it g fo hfo
  rcases hfo with rfl | rfl <;> decide +kernel

/-- **Violation**: a scalar is read when the object is created; a value that the caller writes to its buffer before `Issue` is not used. -/
theorem c68_scalar_violated :
    let it := TIt.start (tileCfg [2] [2] [0] 0) [2] [1]
    let sc := TIt.start (tileCfg [1] [1] [0] 0) [1] [1]
    let g : Glob := ⟨Buf.ofList [1, 2], [1]⟩
    (EltObj.new .add 8 8 it sc it 0 2 3 0 0 0 (Buf.ofList [0, 0, 5, 0, 0])).bind (fun o =>
      (EltHost.run .up g g [1] 1 ⟨o, Buf.ofList [0, 0, 7, 0, 0], Buf.ofList [0, 0], .ok⟩).map fun s =>
        (s.status, (List.range 2).map fun i : Nat => s.gout.get i)) = some (.ok, [6, 7]) := by decide +kernel

end Mli.Rt
