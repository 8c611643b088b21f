import Verif.Spec.Rescale
import Verif.Lemmas.Round
import Verif.Lemmas.Pos
import Verif.Props.Lut
import Verif.Props.Conv
import Verif.Props.Permute

/-! # Rescale (C41) and clip (C42) -/

namespace Mli

open Spec

/-! ## One value -/

theorem scaled_zero {m : Rnd} {x k : Int} (hk : 0 ≤ k) (h1 : -(2 ^ k.toNat) < 2 * x) (h2 : 2 * x < 2 ^ k.toNat) : Scaled m x k 0 := by
  unfold Scaled
  rw [if_pos hk]
  cases m <;> simp only [RoundHalfUp, RoundHalfEven] <;> (try refine ⟨by omega, by omega, ?_⟩) <;> omega

/-- The product is rounded exactly (or leaves the 64-bit range, which saturates). -/
theorem rescale_shift (m : Rnd) {p : Int} (hp : -(2 ^ 46) ≤ p ∧ p ≤ 2 ^ 46) (k : Int) :
    ∃ r, Scaled m p k r ∧ asrRndFx m 64 p (max (-63) (min k 63)) = clamp 64 r := by
  have hr : InRange 64 p := ⟨by simp only [lo]; omega, by simp only [hi]; omega⟩
  rcases Int.lt_or_le k 0 with hk | hk
  · obtain ⟨n, rfl⟩ : ∃ n : Nat, k = -(n : Int) := ⟨(-k).toNat, by omega⟩
    refine ⟨p * 2 ^ n, ?_, ?_⟩
    · unfold Scaled; rw [if_neg (by omega)]; congr 2; omega
    · rcases Nat.lt_or_ge n 64 with hn | hn
      · rw [show max (-63) (min (-(n : Int)) 63) = -(n : Int) by omega, asrRnd_neg (by omega) hr]
      · rw [show max (-63) (min (-(n : Int)) 63) = -((63 : Nat) : Int) by omega, asrRnd_neg (by omega) hr]
        have e : (2 : Int) ^ n = 2 ^ 63 * 2 ^ (n - 63) := by rw [← pow_add]; congr 1; omega
        have h1 := two_pow_pos (n - 63)
        rcases lt_trichotomy p 0 with h | h | h
        · rw [clamp_of_lt, clamp_of_lt]
          · rw [e]; simp only [lo]
            have : (-1 - p) * (2 ^ 63 * 2 ^ (n - 63)) ≥ 0 := Int.mul_nonneg (by omega) (by positivity)
            have h3 : (2 : Int) ^ 63 * 1 ≤ 2 ^ 63 * 2 ^ (n - 63) := Int.mul_le_mul_of_nonneg_left (by omega) (by positivity)
            generalize (2 : Int) ^ 63 * 2 ^ (n - 63) = z at *
            have e : (-1 - p) * z = -z - p * z := by ring
            omega
          · simp only [lo]; omega
        · simp [h]
        · rw [clamp_of_gt, clamp_of_gt]
          · rw [e]; simp only [hi]
            have : (p - 1) * (2 ^ 63 * 2 ^ (n - 63)) ≥ 0 := Int.mul_nonneg (by omega) (by positivity)
            have h3 : (2 : Int) ^ 63 * 1 ≤ 2 ^ 63 * 2 ^ (n - 63) := Int.mul_le_mul_of_nonneg_left (by omega) (by positivity)
            generalize (2 : Int) ^ 63 * 2 ^ (n - 63) = z at *
            have e : (p - 1) * z = p * z - z := by ring
            omega
          · simp only [hi]; omega
  · rcases Int.lt_or_le k 63 with hk2 | hk2
    · obtain ⟨n, rfl⟩ : ∃ n : Nat, k = n := ⟨k.toNat, by omega⟩
      rw [show max (-63) (min (n : Int) 63) = n by omega]
      have h62 : (2 : Int) ^ (n - 1) ≤ 2 ^ 62 := by apply pow_le_pow_right₀ (by decide); omega
      rw [asrRnd_eq_rnd m (by omega) hr n (Or.inr (Or.inr (by simp only [hi]; omega)))]
      refine ⟨_, rnd_scaled m p n, ?_⟩
      rw [← asrRnd_eq_rnd m (w := 64) (by omega) hr n (Or.inr (Or.inr (by simp only [hi]; omega)))]
      rw [clamp_of_inRange (asrRnd_inRange m (by omega) hr _)]
    · refine ⟨0, scaled_zero (by omega) ?_ ?_, ?_⟩
      · have : (2 : Int) ^ 63 ≤ 2 ^ k.toNat := by apply pow_le_pow_right₀ (by decide); omega
        omega
      · have : (2 : Int) ^ 63 ≤ 2 ^ k.toNat := by apply pow_le_pow_right₀ (by decide); omega
        omega
      · rw [show max (-63) (min k 63) = ((63 : Nat) : Int) by omega]
        rw [asrRnd_eq_rnd m (by omega) hr 63 (Or.inr (Or.inr (by simp only [hi]; omega)))]
        rw [scaled_unique (rnd_scaled m p 63) (scaled_zero (by omega) (by show -(2 ^ 63) < 2 * p; omega) (by show 2 * p < 2 ^ 63; omega))]
        rfl

/-- Closed form of one rescaled value; the subtraction of the bias saturates in the input type. -/
theorem rescaleValue_spec (m : Rnd) {wi wo : Nat} (hwi : 1 ≤ wi ∧ wi ≤ 32) (hwo : 2 ≤ wo ∧ wo ≤ 32) {x b bo s : Int} (k : Int)
    (hx : InRange wi x) (hb : InRange wi b) (hbo : InRange wo bo) (hs : InRange 16 s) :
    ∃ r, Scaled m (clamp wi (x - b) * s) k r ∧ rescaleValue m wi wo x b bo s k = clamp wo (r + bo) := by
  have hc := inRange_mono hwi.2 (clamp_inRange wi (x - b))
  have hp : -(2 ^ 46) ≤ clamp wi (x - b) * s ∧ clamp wi (x - b) * s ≤ 2 ^ 46 := by
    have := abs_mul_le (by omega) (by omega) hc hs
    rw [abs_le] at this
    omega
  obtain ⟨r, h1, h2⟩ := rescale_shift m hp k
  refine ⟨r, h1, ?_⟩
  have hb2 := inRange_mono hwo.2 hbo
  have hb3 := inRange_mono (show 32 ≤ 64 by omega) hb2
  unfold rescaleValue
  simp only
  rw [subFx_eq hx hb, h2, addFx_eq (clamp_inRange _ _) hb3, castFx_eq m (by omega) (by omega) (clamp_inRange _ _),
    show asrRndFx m 64 (clamp 64 (clamp 64 r + bo)) 0 = clamp 64 (clamp 64 r + bo) by simp [asrRndFx], clamp_clamp (by omega)]
  have hlo : lo 32 ≤ lo wo := by have := (inRange_mono hwo.2 ⟨le_refl (lo wo), lo_le_hi wo⟩ : InRange 32 (lo wo)).1; exact this
  have hhi : hi wo ≤ hi 32 := by have := (inRange_mono hwo.2 ⟨lo_le_hi wo, le_refl (hi wo)⟩ : InRange 32 (hi wo)).2; exact this
  simp only [InRange, lo, hi] at hb2
  have e1 : lo 32 = -2147483648 := by decide
  have e2 : hi 32 = 2147483647 := by decide
  have e3 : lo 64 = -9223372036854775808 := by decide
  have e4 : hi 64 = 9223372036854775807 := by decide
  rcases Int.lt_or_le r (lo 64) with h | h
  · rw [clamp_of_lt (by omega : r ≤ lo 64), clamp_of_lt (w := wo) (by omega), clamp_of_lt (w := wo) (by omega)]
  rcases Int.lt_or_le (hi 64) r with h' | h'
  · rw [clamp_of_gt (by omega : hi 64 ≤ r), clamp_of_gt (w := wo) (by omega), clamp_of_gt (w := wo) (by omega)]
  rw [clamp_of_inRange (w := 64) ⟨h, h'⟩]

/-! ## The kernel -/

/-- `n` sets of parameters with values of their types. -/
structure RescaleParams.Ok (wi wo : Nat) (n : Int) (p : RescaleParams) : Prop where
  biasIn : n ≤ p.biasIn.size ∧ ∀ i, 0 ≤ i → i < n → InRange wi (p.biasIn.get i)
  scale : n ≤ p.scale.size ∧ ∀ i, 0 ≤ i → i < n → InRange 16 (p.scale.get i)
  shift : n ≤ p.shift.size
  biasOut : n ≤ p.biasOut.size ∧ ∀ i, 0 ≤ i → i < n → InRange wo (p.biasOut.get i)

theorem inShape_getD : ∀ {shape is : List Int} {k : Nat}, InShape shape is → k < shape.length →
    0 ≤ is.getD k 0 ∧ is.getD k 0 < shape.getD k 0
  | n :: ns, i :: is, 0, h, _ => by simpa using h.1
  | n :: ns, i :: is, k + 1, h, hk => by simpa using inShape_getD (k := k) h.2 (by simpa using hk)
  | [], _, _, _, hk => by simp at hk
  | _ :: _, [], _, h, _ => h.elim

theorem paramIdx_lt {shape is : List Int} {axis : Int} (h : InShape shape is) (ha : axis < shape.length) :
    0 ≤ paramIdx axis is ∧ paramIdx axis is < paramCount axis shape := by
  unfold paramIdx paramCount
  split
  · omega
  · exact inShape_getD h (by omega)

theorem pget_eq (p : Nat × Nat × Nat × Nat) (k : Nat) : [(p.1 : Int), p.2.1, p.2.2.1, p.2.2.2].getD k 0 = pget p k := by
  unfold pget
  rcases k with _ | _ | _ | _ | k <;> simp

theorem krnRescale_spec (m : Rnd) {wi wo : Nat} (hwi : 1 ≤ wi ∧ wi ≤ 32) (hwo : 2 ≤ wo ∧ wo ≤ 32) (axis : Int) (p : RescaleParams)
    (src dst : Buf) (tin tout : Tensor) (vi : tin.Valid src) (vo : tout.Valid dst) (hs : tin.shape = tout.shape)
    (ha : axis < tin.dims.length) (hp : p.Ok wi wo (paramCount axis tin.shape))
    (hx : ∀ is, InShape tin.shape is → InRange wi (src.get (tin.addr is))) :
    ∃ dst' val, krnRescale m wi wo axis p src tin tout dst = some dst' ∧ tout.Writes val dst dst' ∧
      ∀ is, InShape tin.shape is → ∃ r,
        Scaled m (clamp wi (src.get (tin.addr is) - p.biasIn.get (paramIdx axis is)) * p.scale.get (paramIdx axis is))
          (p.shift.get (paramIdx axis is)) r ∧ val is = clamp wo (r + p.biasOut.get (paramIdx axis is)) := by
  have hl := length_congr hs
  have hsl : tin.shape.length = tin.dims.length := by simp [Tensor.shape]
  obtain ⟨dst', h1, h2⟩ := forPos_inplace tin tout dst vo hs
    (fun is => rescaleValue m wi wo (src.get (tin.addr is)) (p.biasIn.get (paramIdx axis is)) (p.biasOut.get (paramIdx axis is))
      (p.scale.get (paramIdx axis is)) (p.shift.get (paramIdx axis is)))
    (fun a b c e d =>
      (src.rd (tin.gPos a b c e)).bind fun x =>
      (rescaleAt m wi wo p (if axis < 0 then 0 else [(a : Int), b, c, e].getD axis.toNat 0) x).bind fun v =>
      d.wr (tout.gPos a b c e) v)
    (fun q hq d' hd hfr => by
      have hq' : q ∈ tin.pts := by rw [pts_congr hs]; exact hq
      have hin := (pts_inShape vi.rank hq').1
      rw [gPos_eq vi.rank hq', gPos_eq vo.rank hq, ← hl, vi.rd hin rfl, Option.bind_some]
      have hidx : (if axis < 0 then 0 else [(q.1 : Int), q.2.1, q.2.2.1, q.2.2.2].getD axis.toNat 0) =
          paramIdx axis (idx4 tin.dims.length q) := by
        unfold paramIdx
        split
        · rfl
        · rw [idx4_getD vi.rank q (by omega)]; exact pget_eq q _
      have hlt := paramIdx_lt (axis := axis) hin (by omega)
      rw [hidx, rescaleAt, Buf.rd_some ⟨hlt.1, by have := hp.biasIn.1; omega⟩, Option.bind_some,
        Buf.rd_some ⟨hlt.1, by have := hp.biasOut.1; omega⟩, Option.bind_some,
        Buf.rd_some ⟨hlt.1, by have := hp.scale.1; omega⟩, Option.bind_some,
        Buf.rd_some ⟨hlt.1, by have := hp.shift; omega⟩, Option.bind_some, Option.bind_some])
  refine ⟨dst', _, h1, h2, fun is hi => ?_⟩
  have hlt := paramIdx_lt (axis := axis) hi (by omega)
  exact rescaleValue_spec m hwi hwo _ (hx is hi) (hp.biasIn.2 _ hlt.1 hlt.2) (hp.biasOut.2 _ hlt.1 hlt.2) (hp.scale.2 _ hlt.1 hlt.2)

/-- The combinations of element sizes that `Rescale` implements. -/
def rescaleSupported (wi wo : Nat) : Prop := (wi = 32 ∨ wi = 8) ∧ wo = 8

/-- C41: every element of the output is `round((x - b_in) * s / 2^k) + b_out`, limited to the output type, with the parameters of
the coordinate of the element.  Missing: elements for which `x - b_in` leaves the input type (see the violation), and 32-bit
outputs, which are not implemented. -/
theorem c41_rescale_partial (m : Rnd) {wi wo : Nat} (hw : rescaleSupported wi wo) (axis : Int) (p : RescaleParams) (src dst : Buf)
    (tin tout : Tensor) (vi : tin.Valid src) (vo : tout.Valid dst) (hs : tin.shape = tout.shape) (ha : axis < tin.dims.length)
    (hp : p.Ok wi wo (paramCount axis tin.shape)) (hx : ∀ is, InShape tin.shape is → InRange wi (src.get (tin.addr is)))
    (hd : ∀ is, InShape tin.shape is → InRange wi (src.get (tin.addr is) - p.biasIn.get (paramIdx axis is))) :
    ∃ dst' val, rescaleIssue m (wi / 8) (wo / 8) axis p src tin tout dst = some (.ok, dst') ∧ tout.Writes val dst dst' ∧
      ∀ is, InShape tin.shape is →
        Rescaled m wo (src.get (tin.addr is)) (p.biasIn.get (paramIdx axis is)) (p.scale.get (paramIdx axis is))
          (p.shift.get (paramIdx axis is)) (p.biasOut.get (paramIdx axis is)) (val is) := by
  obtain ⟨h1, rfl⟩ := hw
  obtain ⟨dst', val, r1, r2, r3⟩ := krnRescale_spec m (wi := wi) (wo := 8) (by omega) (by omega) axis p src dst tin tout vi vo hs ha hp hx
  refine ⟨dst', val, ?_, r2, fun is hi => ?_⟩
  · unfold rescaleIssue
    rcases h1 with rfl | rfl
    · rw [if_pos (by decide), r1]; rfl
    · rw [if_neg (by decide), if_pos (by decide), r1]; rfl
  · obtain ⟨r, a, b⟩ := r3 is hi
    rw [clamp_of_inRange (hd is hi)] at a
    exact ⟨r, a, b⟩

/-- What happens without the last condition: the difference is limited to the input type first. -/
theorem c41_saturating (m : Rnd) {wi wo : Nat} (hw : rescaleSupported wi wo) (axis : Int) (p : RescaleParams) (src dst : Buf)
    (tin tout : Tensor) (vi : tin.Valid src) (vo : tout.Valid dst) (hs : tin.shape = tout.shape) (ha : axis < tin.dims.length)
    (hp : p.Ok wi wo (paramCount axis tin.shape)) (hx : ∀ is, InShape tin.shape is → InRange wi (src.get (tin.addr is))) :
    ∃ dst' val, rescaleIssue m (wi / 8) (wo / 8) axis p src tin tout dst = some (.ok, dst') ∧ tout.Writes val dst dst' ∧
      ∀ is, InShape tin.shape is →
        Rescaled m wo (clamp wi (src.get (tin.addr is) - p.biasIn.get (paramIdx axis is))) 0 (p.scale.get (paramIdx axis is))
          (p.shift.get (paramIdx axis is)) (p.biasOut.get (paramIdx axis is)) (val is) := by
  obtain ⟨h1, rfl⟩ := hw
  obtain ⟨dst', val, r1, r2, r3⟩ := krnRescale_spec m (wi := wi) (wo := 8) (by omega) (by omega) axis p src dst tin tout vi vo hs ha hp hx
  refine ⟨dst', val, ?_, r2, fun is hi => ?_⟩
  · unfold rescaleIssue
    rcases h1 with rfl | rfl
    · rw [if_pos (by decide), r1]; rfl
    · rw [if_neg (by decide), if_pos (by decide), r1]; rfl
  · obtain ⟨r, a, b⟩ := r3 is hi
    exact ⟨r, by rwa [Int.sub_zero], b⟩

/-- 2 by 3 elements in rows of 4, rescaled along the last dimension with three sets of parameters. -/
def exRsIn : Tensor := { dims := [⟨2, 4⟩, ⟨3, 1⟩], cap := 28, es := 4 }
def exRsOut : Tensor := { dims := [⟨2, 3⟩, ⟨3, 1⟩], cap := 6, es := 1, base := 1 }
def exRsSrc : List Int := [1000, -500, 7, 99, -2000, 30, 2147483647, 99]
def exRsPar : RescaleParams :=
  { biasIn := Buf.ofList [0, 100, 0], scale := Buf.ofList [3, 16384, -1], shift := Buf.ofList [6, 16, -2], biasOut := Buf.ofList [5, -1, 0] }

theorem forall_lt_int {n : Nat} {P : Int → Prop} (h : ∀ i < n, P ((i : Nat) : Int)) : ∀ i : Int, 0 ≤ i → i < n → P i := by
  intro i h0 h1
  have := h i.toNat (by omega)
  rwa [show ((i.toNat : Nat) : Int) = i by omega] at this

example : exRsIn.Valid (Buf.ofList exRsSrc) ∧ exRsOut.Valid (Buf.ofList (List.replicate 8 77)) ∧ exRsIn.shape = exRsOut.shape ∧
    exRsPar.Ok 32 8 (paramCount 1 exRsIn.shape) ∧
    (rescaleIssue .convergent 4 1 1 exRsPar (Buf.ofList exRsSrc) exRsIn exRsOut (Buf.ofList (List.replicate 8 77))).map
      (fun p => (p.1, p.2.toList)) = some (.ok, [77, 52, -128, -28, -89, -19, -128, 77]) :=
  ⟨⟨by decide, by decide, by decide, by decide⟩, ⟨by decide, by decide, by decide, by decide⟩, rfl,
    ⟨⟨by decide, forall_lt_int (n := 3) (by decide)⟩, ⟨by decide, forall_lt_int (n := 3) (by decide)⟩, by decide,
      ⟨by decide, forall_lt_int (n := 3) (by decide)⟩⟩, by decide +kernel⟩

/-- C41 is violated when `x - b_in` leaves the input type: 127 - (-128) is limited to 127 before the multiplication. -/
theorem c41_bias_violated : ∃ (p : RescaleParams) (src dst dst' : Buf) (t : Tensor), t.Valid src ∧ t.Valid dst ∧ p.Ok 8 8 1 ∧
    rescaleIssue .convergent 1 1 (-1) p src t t dst = some (.ok, dst') ∧ InRange 8 (src.get 0) ∧
    ¬ Rescaled .convergent 8 (src.get 0) (p.biasIn.get 0) (p.scale.get 0) (p.shift.get 0) (p.biasOut.get 0) (dst'.get 0) := by
  refine ⟨{ biasIn := Buf.ofList [-128], scale := Buf.ofList [1], shift := Buf.ofList [1], biasOut := Buf.ofList [-10] },
    Buf.ofList [127], Buf.ofList [0], ⟨1, fun a => if a = 0 then 54 else (Buf.ofList [0]).get a⟩, { dims := [⟨1, 1⟩], cap := 1, es := 1 },
    ⟨by decide, by decide, by decide, by decide⟩, ⟨by decide, by decide, by decide, by decide⟩,
    ⟨⟨by decide, forall_lt_int (n := 1) (by decide)⟩, ⟨by decide, forall_lt_int (n := 1) (by decide)⟩, by decide,
      ⟨by decide, forall_lt_int (n := 1) (by decide)⟩⟩, ?_, by decide, ?_⟩
  · rfl
  · rintro ⟨r, h1, h2⟩
    have h3 : Scaled .convergent 255 1 128 := by
      unfold Scaled; rw [if_pos (by decide)]; simp only [RoundHalfEven]; norm_num
    have h4 : r = 128 := scaled_unique h1 h3
    subst h4
    revert h2
    decide

/-- C41 is violated for 32-bit outputs: the operation reports success and writes nothing, whatever the data. -/
theorem c41_i32_i32_violated (m : Rnd) (axis : Int) (p : RescaleParams) (src dst : Buf) (tin tout : Tensor) :
    rescaleIssue m 4 4 axis p src tin tout dst = some (.ok, dst) := by
  unfold rescaleIssue; rw [if_neg (by decide), if_neg (by decide), if_pos (by decide)]

/-! ## Clip -/

/-- C42 (clip): every element of the output is the element of the input limited to `[lo, hi]`; the output may be the input buffer
itself. -/
theorem c42_clip (es minV maxV : Int) (he : es = 1 ∨ es = 4) (tin tout : Tensor) (mem : Buf) (vi : tin.Valid mem)
    (vo : tout.Valid mem) (hs : tin.shape = tout.shape) (hsep : tin.Separate tout) :
    ∃ mem' val, clipIssue es es minV maxV tin tout mem = some (.ok, mem') ∧ tout.Writes val mem mem' ∧
      ∀ is, InShape tin.shape is → val is = min (max (mem.get (tin.addr is)) minV) maxV := by
  obtain ⟨mem', h1, h2⟩ := forPos_inplace tin tout mem vo hs (fun is => min (max (mem.get (tin.addr is)) minV) maxV)
    (fun a b c e d => (d.rd (tin.gPos a b c e)).bind fun x => d.wr (tout.gPos a b c e) (minFx (maxFx x minV) maxV))
    (fun q hq d' hd hfr => by
      have hq' : q ∈ tin.pts := by rw [pts_congr hs]; exact hq
      have hin := (pts_inShape vi.rank hq').1
      have hl := length_congr hs
      rw [gPos_eq vi.rank hq', gPos_eq vo.rank hq, vi.rd hin hd, Option.bind_some, ← hl]
      congr 1
      rw [hfr _ (fun js hj hne e => hne (by rw [← hl]; exact (hsep _ _ hin hj e.symm).symm))]
      simp only [minFx, maxFx]
      split <;> split <;> omega)
  refine ⟨mem', _, ?_, h2, fun is _ => rfl⟩
  unfold clipIssue
  change krnClip minV maxV tin tout mem = some mem' at h1
  rcases he with rfl | rfl
  · rw [if_pos (by decide), h1]; rfl
  · rw [if_neg (by decide), if_pos (by decide), h1]; rfl

/-- In place, on two rows of three elements with gaps. -/
example : let t : Tensor := { dims := [⟨2, 4⟩, ⟨3, 1⟩], cap := 7, es := 1 }
    let mem := Buf.ofList [1, -90, 100, 55, 20, -20, 7, 55]
    t.Valid mem ∧ t.Separate t ∧
      (clipIssue 1 1 (-10) 15 t t mem).map (fun p => (p.1, p.2.toList)) = some (.ok, [1, -10, 15, 55, 15, -10, 7, 55]) := by
  have v : Tensor.Valid { dims := [⟨2, 4⟩, ⟨3, 1⟩], cap := 7, es := 1 } (Buf.ofList [1, -90, 100, 55, 20, -20, 7, 55]) :=
    ⟨by decide, by decide, by decide, by decide⟩
  exact ⟨v, Tensor.Separate.refl _ _ v, by decide +kernel⟩

end Mli
