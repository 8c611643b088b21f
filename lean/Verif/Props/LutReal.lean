import Verif.Lemmas.LutNodes
import Verif.Props.ConvMore

/-!
# C62: accuracy of the activations against the real functions
-/

namespace Mli

open Spec

/-- A table of ordinary size. -/
def Lut.Small (l : Lut) : Prop := |l.inOffset| ≤ 2 ^ 20 ∧ l.length ≤ 2 ^ 20

/-- Lookup without interpolation. -/
theorem Approx.plain {l : Lut} {g : ℝ → ℝ} {E C B L : ℝ} (h : Approx l g E C B L) (hsm : l.Small) (f v : Int) (hv : InRange 32 v)
    (hl : l.Ok) (hs : f - l.inFrac ≤ 0) :
    ∃ r, lutPlain l f v = some r ∧ InRange 16 r ∧ |(r : ℝ) - 2 ^ 15 * g (fxReal v f)| ≤ max B E := by
  have htwo := hl.two
  have h1 := c28_plain_in_table l f v hv hs (by omega) hl.int hl.fits hl.offset
  refine ⟨_, h1, hl.entries _ (by omega) (by omega), ?_⟩
  obtain ⟨s1, s2⟩ := hsm
  have s1' := abs_le.1 s1
  have e5 : lo 32 = -2147483648 := by decide
  have e6 : hi 32 = 2147483647 := by decide
  obtain ⟨k, hk⟩ : ∃ k : Nat, (l.inFrac - f).toNat = k ∧ l.inFrac = f + k := ⟨_, rfl, by omega⟩
  have ey : fxReal v f = fxReal (v * 2 ^ k) l.inFrac := by
    rw [hk.2, fxReal_shift]
    unfold fxReal
    push_cast
    rw [mul_div_assoc, div_self (by positivity), mul_one]
  rw [hk.1, ey]
  generalize hx : v * 2 ^ k = x at *
  have hI : (0:ℝ) < (2:ℝ) ^ l.inFrac := by positivity
  by_cases c1 : x < -l.inOffset
  · have hc : clamp 32 x + l.inOffset ≤ 0 := by unfold clamp; rw [e5, e6]; split <;> (try split) <;> omega
    have hi : max 0 (min (l.length - 1) (clamp 32 x + l.inOffset)) = 0 := by omega
    rw [hi]
    refine le_max_of_le_left (h.left _ _ ?_ ?_)
    · unfold fxReal
      have : (x : ℝ) ≤ ((-l.inOffset : Int) : ℝ) := by exact_mod_cast c1.le
      gcongr
    · unfold Between; omega
  by_cases c2 : l.length - 1 - l.inOffset < x
  · have hc : l.length - 1 ≤ clamp 32 x + l.inOffset := by unfold clamp; rw [e5, e6]; split <;> (try split) <;> omega
    have hi : max 0 (min (l.length - 1) (clamp 32 x + l.inOffset)) = l.length - 1 := by omega
    rw [hi]
    refine le_max_of_le_left (h.right _ _ ?_ ?_)
    · unfold fxReal
      have : ((l.length - 1 - l.inOffset : Int) : ℝ) ≤ (x : ℝ) := by exact_mod_cast c2.le
      gcongr
    · unfold Between; omega
  · have hc : clamp 32 x = x := by unfold clamp; rw [e5, e6]; split <;> (try split) <;> omega
    have hi : max 0 (min (l.length - 1) (clamp 32 x + l.inOffset)) = x + l.inOffset := by omega
    rw [hi]
    refine le_max_of_le_right ?_
    have := h.node (x + l.inOffset) (by omega) (by omega)
    rw [show x + l.inOffset - l.inOffset = x by ring] at this
    exact this

/-- The constant of the accuracy statements. -/
noncomputable def lutErr (l : Lut) (E C B L : ℝ) : ℝ := max B (E + C + 1 / 2) + 4 * L / 2 ^ l.inFrac

/-- One fixed-point element: an accurate value of 16 bits, converted to the element type. -/
theorem Approx.elem {l : Lut} {g : ℝ → ℝ} {E C B L : ℝ} (h : Approx l g E C B L) (hL : 0 ≤ L) (hC : 0 ≤ C) (hsm : l.Small) (m : Rnd)
    (co : LutOut) (f v : Int) (hv : InRange 16 v) (hl : l.Ok) (hd : l.Smooth) :
    ∃ r, InRange 16 r ∧ |(r : ℝ) - 2 ^ 15 * g (fxReal v f)| ≤ lutErr l E C B L ∧ lutElem m l .fx co f v = lutOutput m l co r := by
  have hv32 : InRange 32 v := inRange_mono (by omega) hv
  by_cases hs : 0 < f - l.inFrac
  · obtain ⟨r, h1, h2⟩ := h.interp hL m f v hv32 hl hd hs (Or.inr (by
      have e1 : lo 16 = -32768 := by decide
      have e2 : hi 16 = 32767 := by decide
      obtain ⟨a, b⟩ := hv
      rw [abs_le]; constructor <;> omega))
    obtain ⟨r', h1', hr⟩ := c28_interpolate_in_table m l f v hv32 hl hs
    obtain rfl : r = r' := by rw [h1] at h1'; exact Option.some.inj h1'
    refine ⟨r, hr, h2, ?_⟩
    unfold lutElem
    simp only []
    rw [interp_lutInterpolates (by simpa [lutFrac] using hs), if_pos rfl]
    show (lutInterp m l f v).bind _ = _
    rw [h1, Option.bind_some]
  · obtain ⟨r, h1, hr, h2⟩ := h.plain hsm f v hv32 hl (by omega)
    refine ⟨r, hr, h2.trans ?_, ?_⟩
    · unfold lutErr
      have hI : (0:ℝ) < (2:ℝ) ^ l.inFrac := by positivity
      have : 0 ≤ 4 * L / 2 ^ l.inFrac := by positivity
      have := max_le_max_left B (show E ≤ E + C + 1 / 2 by linarith)
      linarith
    · have hni : lutInterpolates l .fx f = false := by
        unfold lutInterpolates lutFrac minFx
        simp only [gt_iff_lt, decide_eq_false_iff_not]
        split <;> omega
      unfold lutElem
      simp only []
      rw [hni, if_neg (by simp)]
      show (lutPlain l f v).bind _ = _
      rw [h1, Option.bind_some]

theorem limitReal_lip (w : Nat) (a b : ℝ) : |limitReal w a - limitReal w b| ≤ |a - b| := by
  unfold limitReal
  have h1 := abs_max_sub_max_le_max (-(2:ℝ) ^ (w - 1)) (min (2 ^ (w - 1) - 1) a) (-(2:ℝ) ^ (w - 1)) (min (2 ^ (w - 1) - 1) b)
  have h2 := abs_min_sub_min_le_max ((2:ℝ) ^ (w - 1) - 1) a (2 ^ (w - 1) - 1) b
  rw [sub_self, abs_zero, max_eq_right (abs_nonneg _)] at h2
  rw [sub_self, abs_zero] at h1
  have h1 := h1.trans (max_le (abs_nonneg _) le_rfl)
  exact h1.trans h2

theorem clamp_limitReal (w : Nat) (q : Int) : ((clamp w q : Int) : ℝ) = limitReal w q := by
  have e1 := lo_eq w
  have h1 := lo_neg w
  have h2 := hi_nonneg w
  unfold limitReal
  have el : -(2:ℝ) ^ (w - 1) = ((lo w : Int) : ℝ) := by unfold lo; push_cast; rfl
  have eh : (2:ℝ) ^ (w - 1) - 1 = ((hi w : Int) : ℝ) := by unfold hi; push_cast; rfl
  rw [el, eh, ← Int.cast_min, ← Int.cast_max]
  congr 1
  unfold clamp
  split <;> (try split) <;> omega

/-- `q` is within a half of the real quotient it rounds. -/
theorem scaled_real {m : Rnd} {r n q : Int} (h : Scaled m r n q) : |(q : ℝ) - fxReal r n| ≤ 1 / 2 := by
  unfold fxReal
  by_cases c : 0 ≤ n
  · obtain ⟨k, rfl⟩ : ∃ k : Nat, n = k := ⟨n.toNat, by omega⟩
    obtain ⟨h1, h2⟩ := scaled_nearest h
    rw [zpow_natCast]
    have hp : (0:ℝ) < 2 ^ k := by positivity
    have h1' : -(2:ℝ) ^ k ≤ 2 * (r - q * 2 ^ k) := by exact_mod_cast h1
    have h2' : 2 * ((r:ℝ) - q * 2 ^ k) ≤ 2 ^ k := by exact_mod_cast h2
    have e : (q:ℝ) - r / 2 ^ k = -(r - q * 2 ^ k) / 2 ^ k := by field_simp; ring
    rw [e, abs_le]
    constructor
    · rw [le_div_iff₀ hp]; linarith
    · rw [div_le_iff₀ hp]; linarith
  · obtain ⟨k, rfl⟩ : ∃ k : Nat, n = -(k : Int) := ⟨(-n).toNat, by omega⟩
    unfold Scaled at h
    rw [if_neg (by omega)] at h
    rw [neg_neg, Int.toNat_natCast] at h
    rw [h, zpow_neg, zpow_natCast]
    push_cast
    rw [div_inv_eq_mul, sub_self, abs_zero]
    norm_num

/-- The fixed-point kernels. -/
theorem Approx.kernel_fx {l : Lut} {g : ℝ → ℝ} {E C B L : ℝ} (h : Approx l g E C B L) (hL : 0 ≤ L) (hC : 0 ≤ C) (hsm : l.Small) (m : Rnd)
    (hl : l.Ok) (hd : l.Smooth) (w : Nat) (hw : w = 8 ∨ w = 16) (f : Int)
    (tin tout : Tensor) (mem : Buf) (hi : tin.Valid mem) (ho : tout.Valid mem) (hsh : tin.shape = tout.shape)
    (i1 : tin.strides.getLast? = some 1) (o1 : tout.strides.getLast? = some 1) (hsep : tin.Separate tout)
    (hel : ∀ is, InShape tin.shape is → InRange w (mem.get (tin.addr is))) :
    ∃ mem' val, krnActivationFx m l w f tin tout mem = some (.ok, mem') ∧ tout.Writes val mem mem' ∧
      ∀ is, InShape tin.shape is →
        (w = 16 → |(val is : ℝ) - 2 ^ 15 * g (fxReal (mem.get (tin.addr is)) f)| ≤ lutErr l E C B L) ∧
        (w = 8 → |(val is : ℝ) - limitReal 8 (2 ^ 7 * g (fxReal (mem.get (tin.addr is)) f))| ≤ 1 / 2 + lutErr l E C B L / 2 ^ 8) := by
  have key : ∀ is : List Int, ∃ y : Int, InShape tin.shape is →
      lutElem m l .fx (.fx w) f (mem.get (tin.addr is)) = some y ∧
        (w = 16 → |(y : ℝ) - 2 ^ 15 * g (fxReal (mem.get (tin.addr is)) f)| ≤ lutErr l E C B L) ∧
        (w = 8 → |(y : ℝ) - limitReal 8 (2 ^ 7 * g (fxReal (mem.get (tin.addr is)) f))| ≤ 1 / 2 + lutErr l E C B L / 2 ^ 8) := by
    intro is
    by_cases his : InShape tin.shape is
    · obtain ⟨r, hr, h1, h2⟩ := h.elem hL hC hsm m (.fx w) f _ (inRange_mono (by omega) (hel is his)) hl hd
      obtain ⟨q, h3, h4⟩ := lutOutput_fx m l w hw r hr
      refine ⟨clamp w q, fun _ => ⟨by rw [h2, h4], ?_, ?_⟩⟩
      · rintro rfl
        have : q = r := scaled_unique h3 (by unfold Scaled; cases m <;> simp [RoundHalfUp, RoundHalfEven])
        rw [this, clamp_of_inRange hr]
        exact h1
      · rintro rfl
        rw [clamp_limitReal]
        refine (limitReal_lip 8 _ _).trans ?_
        have h5 := scaled_real h3
        unfold fxReal at h5 h1 ⊢
        generalize g ((mem.get (tin.addr is) : ℝ) / 2 ^ f) = G at *
        rw [abs_le] at h5 h1 ⊢
        norm_num at *
        constructor <;> linarith [h5.1, h5.2, h1.1, h1.2]
    · exact ⟨0, fun h => absurd h his⟩
  choose val hval using key
  obtain ⟨mem', h1, h2⟩ := map_unary tin tout mem hi ho hsh hsep (lutElem m l .fx (.fx w) f) val
    (fun is his => (hval is his).1)
  refine ⟨mem', val, ?_, h2, fun is his => (hval is his).2⟩
  have hchk : chkBasicActivation tin tout = some .ok := by
    simp [chkBasicActivation, hi.accepted, ho.accepted, sameShape, hsh, innerOne, i1, o1]
  have hrun : activationLut m l .fx (.fx w) f tin tout mem = some mem' := by
    unfold activationLut
    rw [c33_squash_invisible tin tout hsh hi.accepted ho.accepted]
    exact h1
  simp [krnActivationFx, hchk, hrun]

/-- Position of an SA8 element, saturated to 32 bits. -/
theorem Approx.sa {l : Lut} {g : ℝ → ℝ} {E C B L : ℝ} (h : Approx l g E C B L) (hL : 0 ≤ L) (hsm : l.Small) (m : Rnd)
    (hl : l.Ok) (X sh x r : Int) (hX : Scaled m X (sh - (l.inFrac + 8)) x)
    (hT : TableValue l.data.get l.length l.inOffset 8 (clamp 32 x) r) :
    |(r : ℝ) - 2 ^ 15 * g (fxReal X sh)| ≤ max B (E + C + 1 / 2) + 64 * L / 2 ^ l.inFrac := by
  obtain ⟨s1, s2⟩ := hsm
  have s1' := abs_le.1 s1
  have e5 : lo 32 = -2147483648 := by decide
  have e6 : hi 32 = 2147483647 := by decide
  have htwo := hl.two
  have k := h.table 8 _ r (fxReal x (l.inFrac + (8 : Nat))) hl.two hT (by
    by_cases c1 : x < lo 32
    · left
      have ec : clamp 32 x = lo 32 := by unfold clamp; rw [e5, e6] at *; split <;> (try split) <;> omega
      rw [ec, e5]
      refine ⟨by omega, ?_⟩
      rw [fxReal_shift]
      unfold fxReal
      have : (x : ℝ) / 2 ^ 8 ≤ ((-l.inOffset : Int) : ℝ) := by
        rw [div_le_iff₀ (by positivity)]
        have : x ≤ -l.inOffset * 2 ^ 8 := by omega
        exact_mod_cast this
      gcongr
    by_cases c2 : hi 32 < x
    · right; left
      have ec : clamp 32 x = hi 32 := by unfold clamp; rw [e5, e6] at *; split <;> (try split) <;> omega
      rw [ec, e6]
      refine ⟨by omega, ?_⟩
      rw [fxReal_shift]
      unfold fxReal
      have : ((l.length - 1 - l.inOffset : Int) : ℝ) ≤ (x : ℝ) / 2 ^ 8 := by
        rw [le_div_iff₀ (by positivity)]
        have : (l.length - 1 - l.inOffset) * 2 ^ 8 ≤ x := by omega
        exact_mod_cast this
      gcongr
    · right; right
      rw [clamp_of_inRange ⟨by omega, by omega⟩])
  have hI : (0:ℝ) < (2:ℝ) ^ l.inFrac := by positivity
  have hd : |fxReal X sh - fxReal x (l.inFrac + (8 : Nat))| ≤ 1 / 2 / 2 ^ 8 / 2 ^ l.inFrac := by
    have hs := scaled_real hX
    rw [fxReal_shift]
    have e : fxReal X sh = fxReal X (sh - (l.inFrac + 8)) / 2 ^ 8 / 2 ^ l.inFrac := by
      unfold fxReal
      rw [div_div, div_div, show ((2:ℝ) ^ 8) = (2:ℝ) ^ (8 : Int) by norm_num, ← zpow_add₀ (by norm_num), ← zpow_add₀ (by norm_num)]
      congr 2; ring
    rw [e, ← sub_div, ← sub_div, abs_div, abs_div, abs_of_pos hI, abs_of_pos (by positivity : (0:ℝ) < 2 ^ 8), abs_sub_comm]
    gcongr
  have hlip := h.lip (fxReal x (l.inFrac + (8 : Nat))) (fxReal X sh)
  generalize g (fxReal x (l.inFrac + (8 : Nat))) = G at *
  generalize g (fxReal X sh) = G' at *
  generalize |fxReal X sh - fxReal x (l.inFrac + (8 : Nat))| = d at *
  have h3 : 2 ^ 15 * |G' - G| ≤ 64 * L / 2 ^ l.inFrac := by
    calc (2:ℝ) ^ 15 * |G' - G| ≤ 2 ^ 15 * (L * d) := by gcongr
      _ ≤ 2 ^ 15 * (L * (1 / 2 / 2 ^ 8 / 2 ^ l.inFrac)) := by gcongr
      _ = _ := by norm_num; ring
  have e : (r : ℝ) - 2 ^ 15 * G' = (r - 2 ^ 15 * G) + -(2 ^ 15 * (G' - G)) := by ring
  rw [e]
  refine (abs_add_le _ _).trans (add_le_add k ?_)
  rw [abs_neg, abs_mul, abs_of_pos (by positivity : (0:ℝ) < 2 ^ 15)]
  exact h3

/-- The SA8 kernels: output scale `2^-osh`, zero point `oo`. -/
theorem Approx.kernel_sa {l : Lut} {g : ℝ → ℝ} {E C B L : ℝ} (h : Approx l g E C B L) (hL : 0 ≤ L) (hsm : l.Small) (m : Rnd)
    (hl : l.Ok) (hd : l.Smooth) (hfr : InRange 8 (l.inFrac + 8)) (hof : l.outFrac = 15)
    (o sc sh oo osh : Int) (hzp : InRange 8 o) (hsc : InRange 16 sc) (hoo : InRange 8 oo) (hos : osh ≤ 15)
    (tin tout : Tensor) (mem : Buf) (hi : tin.Valid mem) (ho : tout.Valid mem) (hsh : tin.shape = tout.shape)
    (i1 : tin.strides.getLast? = some 1) (o1 : tout.strides.getLast? = some 1) (hsep : tin.Separate tout)
    (hel : ∀ is, InShape tin.shape is → InRange 8 (mem.get (tin.addr is))) :
    ∃ mem' val, krnActivationSa m l o sc sh oo osh tin tout mem = some (.ok, mem') ∧ tout.Writes val mem mem' ∧
      ∀ is, InShape tin.shape is →
        |(val is : ℝ) - limitReal 8 (2 ^ osh * g (fxReal ((mem.get (tin.addr is) - o) * sc) sh) + oo)| ≤
          1 / 2 + (max B (E + C + 1 / 2) + 64 * L / 2 ^ l.inFrac) / 2 ^ (15 - osh) := by
  obtain ⟨mem', val, h1, h2, h3⟩ := c29_activation_kernel_sa m l o sc sh oo osh tin tout mem hi ho hsh i1 o1 hsep hl hd hfr hzp hsc hoo
    (by omega) hel
  refine ⟨mem', val, h1, h2, fun is his => ?_⟩
  obtain ⟨x, r, q, k1, k2, k3, k4⟩ := h3 is his
  have k5 := h.sa hL hsm m hl _ sh x r k1 k2
  rw [k4, clamp_limitReal]
  refine (limitReal_lip 8 _ _).trans ?_
  have k6 := scaled_real k3
  rw [hof] at k6
  generalize max B (E + C + 1 / 2) + 64 * L / 2 ^ l.inFrac = D at *
  generalize g (fxReal ((mem.get (tin.addr is) - o) * sc) sh) = G at *
  have hP : (0:ℝ) < (2:ℝ) ^ (15 - osh) := by positivity
  have k7 : |fxReal r (15 - osh) - 2 ^ osh * G| ≤ D / 2 ^ (15 - osh) := by
    have e : fxReal r (15 - osh) - 2 ^ osh * G = (r - 2 ^ 15 * G) / 2 ^ (15 - osh) := by
      unfold fxReal
      rw [sub_div]
      congr 1
      rw [eq_div_iff hP.ne', mul_assoc, mul_comm G, ← mul_assoc, ← zpow_add₀ (by norm_num), show osh + (15 - osh) = (15 : Int) by ring]
      norm_num
    rw [e, abs_div, abs_of_pos hP]
    gcongr
  have e : ((q + oo : Int) : ℝ) - (2 ^ osh * G + oo) = (q - fxReal r (15 - osh)) + (fxReal r (15 - osh) - 2 ^ osh * G) := by push_cast; ring
  rw [e]
  exact (abs_add_le _ _).trans (add_le_add k6 k7)

/-! ## the library's kernels -/

theorem sigmoid_small : sigmoidLut.Small := ⟨by decide, by decide⟩
theorem tanh_small : tanhLut.Small := ⟨by decide, by decide⟩

/-- Sigmoid of a fixed-point tensor with any number `f` of fractional bits: the 16-bit result is
within 2.7 units of `2^-15` of the real sigmoid, the 8-bit one within 0.52 units of `2^-7` of its
value limited to the range of the output. -/
theorem c62_sigmoid_fx (m : Rnd) (w : Nat) (hw : w = 8 ∨ w = 16) (f : Int)
    (tin tout : Tensor) (mem : Buf) (hi : tin.Valid mem) (ho : tout.Valid mem) (hsh : tin.shape = tout.shape)
    (i1 : tin.strides.getLast? = some 1) (o1 : tout.strides.getLast? = some 1) (hsep : tin.Separate tout)
    (hel : ∀ is, InShape tin.shape is → InRange w (mem.get (tin.addr is))) :
    ∃ mem' val, krnActivationFx m sigmoidLut w f tin tout mem = some (.ok, mem') ∧ tout.Writes val mem mem' ∧
      ∀ is, InShape tin.shape is →
        (w = 16 → |(val is : ℝ) - 2 ^ 15 * Real.sigmoid (fxReal (mem.get (tin.addr is)) f)| ≤ 2.7) ∧
        (w = 8 → |(val is : ℝ) - limitReal 8 (2 ^ 7 * Real.sigmoid (fxReal (mem.get (tin.addr is)) f))| ≤ 0.52) := by
  obtain ⟨mem', val, h1, h2, h3⟩ := sigmoid_approx.kernel_fx (by norm_num) (by norm_num) sigmoid_small m sigmoid_ok.1 sigmoid_ok.2.1 w hw f
    tin tout mem hi ho hsh i1 o1 hsep hel
  have e : lutErr sigmoidLut (1 / 2) (8 / 5) 2 (1 / 4) ≤ 2.7 := by
    unfold lutErr; simp only [sigmoidLut]; norm_num
  refine ⟨mem', val, h1, h2, fun is his => ⟨fun hw => ((h3 is his).1 hw).trans e, fun hw => ((h3 is his).2 hw).trans ?_⟩⟩
  norm_num at *; linarith

/-- Hyperbolic tangent of a fixed-point tensor. -/
theorem c62_tanh_fx (m : Rnd) (w : Nat) (hw : w = 8 ∨ w = 16) (f : Int)
    (tin tout : Tensor) (mem : Buf) (hi : tin.Valid mem) (ho : tout.Valid mem) (hsh : tin.shape = tout.shape)
    (i1 : tin.strides.getLast? = some 1) (o1 : tout.strides.getLast? = some 1) (hsep : tin.Separate tout)
    (hel : ∀ is, InShape tin.shape is → InRange w (mem.get (tin.addr is))) :
    ∃ mem' val, krnActivationFx m tanhLut w f tin tout mem = some (.ok, mem') ∧ tout.Writes val mem mem' ∧
      ∀ is, InShape tin.shape is →
        (w = 16 → |(val is : ℝ) - 2 ^ 15 * Real.tanh (fxReal (mem.get (tin.addr is)) f)| ≤ 4.4) ∧
        (w = 8 → |(val is : ℝ) - limitReal 8 (2 ^ 7 * Real.tanh (fxReal (mem.get (tin.addr is)) f))| ≤ 0.52) := by
  obtain ⟨mem', val, h1, h2, h3⟩ := tanh_approx.kernel_fx (by norm_num) (by norm_num) tanh_small m tanh_ok.1 tanh_ok.2.1 w hw f
    tin tout mem hi ho hsh i1 o1 hsep hel
  have e : lutErr tanhLut (1 / 2) (16 / 5) 2 1 ≤ 4.4 := by
    unfold lutErr; simp only [tanhLut]; norm_num
  refine ⟨mem', val, h1, h2, fun is his => ⟨fun hw => ((h3 is his).1 hw).trans e, fun hw => ((h3 is his).2 hw).trans ?_⟩⟩
  norm_num at *; linarith

/-- Sigmoid of an SA8 tensor (zero point `o`, scale `sc / 2^sh`); the output has zero point -128 and
scale `2^-8`. -/
theorem c62_sigmoid_sa8 (m : Rnd) (o sc sh : Int) (hzp : InRange 8 o) (hsc : InRange 16 sc)
    (tin tout : Tensor) (mem : Buf) (hi : tin.Valid mem) (ho : tout.Valid mem) (hsh : tin.shape = tout.shape)
    (i1 : tin.strides.getLast? = some 1) (o1 : tout.strides.getLast? = some 1) (hsep : tin.Separate tout)
    (hel : ∀ is, InShape tin.shape is → InRange 8 (mem.get (tin.addr is))) :
    ∃ mem' val, krnActivationSa m sigmoidLut o sc sh (-128) 8 tin tout mem = some (.ok, mem') ∧ tout.Writes val mem mem' ∧
      ∀ is, InShape tin.shape is →
        |(val is : ℝ) - limitReal 8 (2 ^ 8 * Real.sigmoid (fxReal ((mem.get (tin.addr is) - o) * sc) sh) - 128)| ≤ 0.53 := by
  obtain ⟨mem', val, h1, h2, h3⟩ := sigmoid_approx.kernel_sa (by norm_num) sigmoid_small m sigmoid_ok.1 sigmoid_ok.2.1
    (by decide) (by decide) o sc sh (-128) 8 hzp hsc (by decide) (by decide) tin tout mem hi ho hsh i1 o1 hsep hel
  refine ⟨mem', val, h1, h2, fun is his => ?_⟩
  have h4 := h3 is his
  rw [show ((2:ℝ) ^ (8:Int) * Real.sigmoid (fxReal ((mem.get (tin.addr is) - o) * sc) sh) + ((-128 : Int) : ℝ)) =
    2 ^ 8 * Real.sigmoid (fxReal ((mem.get (tin.addr is) - o) * sc) sh) - 128 by push_cast; norm_num; ring] at h4
  refine h4.trans ?_
  simp only [sigmoidLut]; norm_num

/-- Hyperbolic tangent of an SA8 tensor; the output has zero point 0 and scale `2^-7`. -/
theorem c62_tanh_sa8 (m : Rnd) (o sc sh : Int) (hzp : InRange 8 o) (hsc : InRange 16 sc)
    (tin tout : Tensor) (mem : Buf) (hi : tin.Valid mem) (ho : tout.Valid mem) (hsh : tin.shape = tout.shape)
    (i1 : tin.strides.getLast? = some 1) (o1 : tout.strides.getLast? = some 1) (hsep : tin.Separate tout)
    (hel : ∀ is, InShape tin.shape is → InRange 8 (mem.get (tin.addr is))) :
    ∃ mem' val, krnActivationSa m tanhLut o sc sh 0 7 tin tout mem = some (.ok, mem') ∧ tout.Writes val mem mem' ∧
      ∀ is, InShape tin.shape is →
        |(val is : ℝ) - limitReal 8 (2 ^ 7 * Real.tanh (fxReal ((mem.get (tin.addr is) - o) * sc) sh))| ≤ 0.53 := by
  obtain ⟨mem', val, h1, h2, h3⟩ := tanh_approx.kernel_sa (by norm_num) tanh_small m tanh_ok.1 tanh_ok.2.1
    (by decide) (by decide) o sc sh 0 7 hzp hsc (by decide) (by decide) tin tout mem hi ho hsh i1 o1 hsep hel
  refine ⟨mem', val, h1, h2, fun is his => ?_⟩
  have h4 := h3 is his
  rw [show ((2:ℝ) ^ (7:Int) * Real.tanh (fxReal ((mem.get (tin.addr is) - o) * sc) sh) + ((0 : Int) : ℝ)) =
    2 ^ 7 * Real.tanh (fxReal ((mem.get (tin.addr is) - o) * sc) sh) by push_cast; norm_num] at h4
  refine h4.trans ?_
  simp only [tanhLut]; norm_num

/-- Hypotheses met: a 16-bit tensor with 12 fractional bits and a row pitch, in place (the values
are 1.0, -2.0, 0.5 and -7.999); and an SA8 tensor. -/
example :
    let t : Tensor := { dims := [⟨2, 3⟩, ⟨2, 1⟩], cap := 12, es := 2, base := 1 }
    let mem := Buf.ofList [9, 4096, -8192, 9, 2048, -32765, 9]
    t.Valid mem ∧ t.Separate t ∧ t.strides.getLast? = some 1 ∧
    (∀ is, InShape t.shape is → InRange 16 (mem.get (t.addr is))) ∧
    (krnActivationFx .convergent sigmoidLut 16 12 t t mem).map (fun p => (p.1, p.2.toList)) =
      some (.ok, [9, 23955, 3906, 9, 20397, 11, 9]) ∧
    (krnActivationFx .convergent tanhLut 16 12 t t mem).map (fun p => (p.1, p.2.toList)) =
      some (.ok, [9, 24956, -31589, 9, 15143, -32767, 9]) := by
  have hv : Tensor.Valid { dims := [⟨2, 3⟩, ⟨2, 1⟩], cap := 12, es := 2, base := 1 }
      (Buf.ofList [9, 4096, -8192, 9, 2048, -32765, 9]) := ⟨by decide, by decide, by decide, by decide⟩
  exact ⟨hv, Tensor.Separate.refl _ _ hv, by decide, holds_ofList (by decide) _, by decide +kernel, by decide +kernel⟩

end Mli
