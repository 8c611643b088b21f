import Verif.Model.Lut
import Verif.Lemmas.Round
import Verif.Lemmas.Map
import Verif.Props.Math

/-! # C28, C29, C53: table-driven activations -/

namespace Mli

open Spec

/-- A table as the kernels expect it: `n` 16-bit entries that exist, neighbouring entries less than
`2^15` apart, and an offset of 32 bits. -/
structure Lut.Ok (l : Lut) : Prop where
  two : 2 ≤ l.length
  int : l.length ≤ 2147483647
  fits : l.length ≤ l.data.size
  entries : ∀ i, 0 ≤ i → i < l.length → InRange 16 (l.data.get i)
  offset : InRange 32 l.inOffset

/-- Neighbouring entries differ by a value of 16 bits. -/
def Lut.Smooth (l : Lut) : Prop :=
  ∀ i, 0 ≤ i → i < l.length - 1 → InRange 16 (l.data.get i - l.data.get (i + 1))

theorem bound_clamp (y n : Int) (hn : 0 ≤ n) (h2 : n ≤ 2147483647) :
    boundRangeFx (clamp 32 y) 0 n = max 0 (min n y) := by
  have e1 : lo 32 = -2147483648 := by decide
  have e2 : hi 32 = 2147483647 := by decide
  unfold boundRangeFx maxFx minFx clamp
  rw [e1, e2]
  split <;> split <;> (try split) <;> (try split) <;> omega

theorem lut_product {d t : Int} (h : InRange 16 d) (h0 : 0 ≤ t) (h1 : t ≤ 32767) :
    -1073709056 ≤ d * t ∧ d * t ≤ 1073709056 := by
  have e1 : lo 16 = -32768 := by decide
  have e2 : hi 16 = 32767 := by decide
  obtain ⟨a, b⟩ := h
  rw [e1] at a; rw [e2] at b
  constructor <;> nlinarith

/-- Shape of the lookup: cell, position in the cell. -/
theorem lutInterp_eq (m : Rnd) (l : Lut) (f v : Int) (hv : InRange 32 v) (hl : l.Ok)
    (hs : 0 < f - l.inFrac) :
    let s := (min (f - l.inFrac) 15).toNat
    let x := v / 2 ^ (min (max (f - l.inFrac - 15) 0) 15).toNat
    let i := max 0 (min (l.length - 2) (x / 2 ^ s + l.inOffset))
    lutInterp m l f v = some (wrap 16 (l.data.get i -
      clamp 16 (rnd m (wrap 16 (l.data.get i - l.data.get (i + 1)) * (x % 2 ^ s)) s))) := by
  intro s x i
  have hx : InRange 32 x := inRange_div hv _
  have hs1 : 1 ≤ s ∧ s ≤ 15 := by omega
  have hp2 : (2 ^ s : Int) ≤ 2 ^ 15 := pow_le_pow_right₀ (by decide) hs1.2
  have hp := two_pow_pos s
  have es : minFx (f - l.inFrac) 15 = (s : Int) := by unfold minFx; split <;> omega
  have ep : minFx (maxFx (f - l.inFrac - 15) 0) 15 = ((min (max (f - l.inFrac - 15) 0) 15).toNat : Int) := by
    unfold minFx maxFx; split <;> split <;> omega
  have hi1 : 0 ≤ i ∧ i ≤ l.length - 2 := by have := hl.two; omega
  have hm0 := Int.emod_nonneg x (show (2 ^ s : Int) ≠ 0 by omega)
  have hm1 := Int.emod_lt_of_pos x hp
  have em : wrap 16 ((2:Int) ^ s - 1) = 2 ^ s - 1 := by
    apply wrap_of_inRange (by omega)
    have e1 : lo 16 = -32768 := by decide
    have e2 : hi 16 = 32767 := by decide
    unfold InRange; rw [e1, e2]; omega
  have ew : wrap 16 (x % 2 ^ s) = x % 2 ^ s := by
    apply wrap_of_inRange (by omega)
    have e1 : lo 16 = -32768 := by decide
    have e2 : hi 16 = 32767 := by decide
    unfold InRange; rw [e1, e2]; omega
  have eidx : boundRangeFx (addFx 32 (asrFx 32 x (s : Int)) l.inOffset) 0 (l.length - 2) = i := by
    rw [asrFx_nonneg (by omega) hx, addFx_eq (inRange_div hx _) hl.offset,
      bound_clamp _ _ (by have := hl.two; omega) (by have := hl.int; omega)]
  unfold lutInterp
  simp only []
  rw [es, ep, if_neg (by omega), asrFx_nonneg (by omega) hv]
  rw [show v / 2 ^ (min (max (f - l.inFrac - 15) 0) 15).toNat = x from rfl]
  rw [eidx, Int.toNat_natCast, em, cand_low_eq (by omega), ew,
    Buf.rd_some (by have := hl.fits; omega), Option.bind_some,
    Buf.rd_some (by have := hl.fits; omega), Option.bind_some]
  have hd : InRange 16 (wrap 16 (l.data.get i - l.data.get (i + 1))) := wrap_inRange _
  have hb := lut_product hd hm0 (by omega)
  have e3 : lo 32 = -2147483648 := by decide
  have e4 : hi 32 = 2147483647 := by decide
  have hr : InRange 32 (wrap 16 (l.data.get i - l.data.get (i + 1)) * (x % 2 ^ s)) := by
    unfold InRange; rw [e3, e4]; omega
  rw [accCast16_eq m hr, asrRnd_eq_rnd m (by omega) hr]
  right; right
  have : (2 ^ (s - 1) : Int) ≤ 2 ^ 14 := pow_le_pow_right₀ (by decide) (by omega)
  rw [e4]; omega

/-! ## C28 -/

/-- A lookup with interpolation always finds both entries inside of the table, whatever the input
value, its scaling and the table offset. -/
theorem c28_interpolate_in_table (m : Rnd) (l : Lut) (f v : Int) (hv : InRange 32 v) (hl : l.Ok)
    (hs : 0 < f - l.inFrac) : ∃ r, lutInterp m l f v = some r ∧ InRange 16 r :=
  ⟨_, lutInterp_eq m l f v hv hl hs, wrap_inRange _⟩

/-- A lookup without interpolation reads an entry of the table, for every table of at least one
entry: the entry of the input position, or the first or last one. -/
theorem c28_plain_in_table (l : Lut) (f v : Int) (hv : InRange 32 v) (hf : f - l.inFrac ≤ 0)
    (h1 : 1 ≤ l.length) (h2 : l.length ≤ 2147483647) (h3 : l.length ≤ l.data.size) (h4 : InRange 32 l.inOffset) :
    lutPlain l f v = some (l.data.get
      (max 0 (min (l.length - 1) (clamp 32 (v * 2 ^ (l.inFrac - f).toNat) + l.inOffset)))) := by
  obtain ⟨k, hk⟩ : ∃ k : Nat, -(minFx (f - l.inFrac) 15) = (k : Int) ∧ k = (l.inFrac - f).toNat := by
    refine ⟨(l.inFrac - f).toNat, ?_, rfl⟩
    unfold minFx; split <;> omega
  unfold lutPlain
  simp only []
  rw [hk.1, aslFx_nonneg (by omega) hv, addFx_eq (clamp_inRange _ _) h4, bound_clamp _ _ (by omega) (by omega),
    ← hk.2, Buf.rd_some (by omega)]

/-- With a table of one entry the interpolating lookup reads outside of the table; the sigmoid and
tanh kernels accept such a table. -/
theorem c28_short_table_violated :
    ∃ (l : Lut) (f v : Int), l.length = 1 ∧ l.data.size = 1 ∧ InRange 16 v ∧ InRange 16 (l.data.get 0) ∧
      lutElem .convergent l .fx (.fx 16) f v = none := by
  refine ⟨⟨Buf.ofList [5], 1, 4, 15, 0⟩, 8, 100, rfl, by decide, by decide, by decide, by decide⟩

/-- Hypotheses met: a table of three entries, input far to the right of it. -/
example :
    let l : Lut := ⟨Buf.ofList [10, 20, 40], 3, 4, 15, 1⟩
    lutInterp .convergent l 6 1000 = some 20 ∧ lutInterp .convergent l 6 1002 = some 30 ∧
    lutPlain l 2 (-1) = some 10 := by decide

/-! ## C29 -/

/-- The interpolated value. -/
theorem c29_interpolated (m : Rnd) (l : Lut) (f v : Int) (hv : InRange 32 v) (hl : l.Ok) (hd : l.Smooth)
    (hs : 0 < f - l.inFrac) :
    ∃ r, lutInterp m l f v = some r ∧
      TableValue l.data.get l.length l.inOffset (min (f - l.inFrac) 15).toNat
        (v / 2 ^ (min (max (f - l.inFrac - 15) 0) 15).toNat) r := by
  refine ⟨_, lutInterp_eq m l f v hv hl hs, ?_⟩
  generalize hS : (min (f - l.inFrac) 15).toNat = s
  generalize v / 2 ^ (min (max (f - l.inFrac - 15) 0) 15).toNat = x
  refine ⟨_, rfl, ?_⟩
  generalize hi : max 0 (min (l.length - 2) (x / 2 ^ s + l.inOffset)) = i
  have htwo := hl.two
  have hi1 : 0 ≤ i ∧ i ≤ l.length - 2 := by omega
  have hdi := hd i hi1.1 (by omega)
  rw [wrap_of_inRange (by omega) hdi]
  have ha := hl.entries i hi1.1 (by omega)
  have hb := hl.entries (i + 1) (by omega) (by omega)
  generalize l.data.get i = a at *
  generalize l.data.get (i + 1) = b at *
  have hp := two_pow_pos s
  have hm0 := Int.emod_nonneg x (show (2 ^ s : Int) ≠ 0 by omega)
  have hm1 := Int.emod_lt_of_pos x hp
  have hn := rnd_nearest m ((a - b) * (x % 2 ^ s)) s
  have hfr := nearest_frac hn hm0 hm1
  have hz : x % 2 ^ s = 0 → rnd m ((a - b) * (x % 2 ^ s)) s = 0 := by
    intro e
    rw [e, mul_zero] at hn ⊢
    have h1 := (nearest_frac (d := 0) (t := 0) (by rw [mul_zero]; exact hn) (le_refl 0) hp)
    have := h1.1 (le_refl 0); omega
  generalize rnd m ((a - b) * (x % 2 ^ s)) s = q at *
  obtain ⟨d1, d2⟩ := hdi
  obtain ⟨a1, a2⟩ := ha
  obtain ⟨b1, b2⟩ := hb
  have hq : InRange 16 q := by
    have h1 := lo_neg 16; have h2 := hi_nonneg 16
    rcases Int.le_total 0 (a - b) with h | h
    · have := hfr.1 h; exact ⟨by omega, by omega⟩
    · have := hfr.2 h; exact ⟨by omega, by omega⟩
  rw [clamp_of_inRange hq]
  have hbt : Between a b (a - q) := by
    rcases Int.le_total 0 (a - b) with h | h
    · right; have := hfr.1 h; omega
    · left; have := hfr.2 h; omega
  have hr : InRange 16 (a - q) := by
    rcases hbt with h | h
    · exact ⟨by omega, by omega⟩
    · exact ⟨by omega, by omega⟩
  rw [wrap_of_inRange (by omega) hr]
  refine ⟨?_, hbt, fun e => by rw [hz e]; omega⟩
  unfold Nearest at hn ⊢
  have e : a * 2 ^ s + (b - a) * (x % 2 ^ s) - (a - q) * 2 ^ s = -((a - b) * (x % 2 ^ s) - q * 2 ^ s) := by ring
  rw [e]; omega

/-- When two neighbouring entries are `2^15` or more apart, the difference wraps around and the
result is not between the entries. -/
theorem c29_steep_table_violated :
    ∃ (l : Lut) (f v r : Int), l.Ok ∧ InRange 16 v ∧ lutInterp .convergent l f v = some r ∧
      ¬ Between (l.data.get 0) (l.data.get 1) r ∧
      max 0 (min (l.length - 2) (v / 2 ^ 4 + l.inOffset)) = 0 := by
  refine ⟨⟨Buf.ofList [-20000, 20000], 2, 4, 15, 0⟩, 8, 8, -32768, ?_⟩
  refine ⟨⟨by decide, by decide, by decide, ?_, by decide⟩, by decide, by decide, by unfold Between; decide, by decide⟩
  intro i h0 h1
  have : i = 0 ∨ i = 1 := by simp only at h1; omega
  rcases this with rfl | rfl <;> decide

/-! ## whole kernels -/

theorem interp_lutInterpolates {l : Lut} {ci : LutIn} {inFrac : Int} (h : 0 < lutFrac l ci inFrac - l.inFrac) :
    lutInterpolates l ci inFrac = true := by
  unfold lutInterpolates minFx
  simp only [gt_iff_lt, decide_eq_true_eq]
  split <;> omega

/-- The fixed-point output conversion rounds to the element type. -/
theorem lutOutput_fx (m : Rnd) (l : Lut) (w : Nat) (hw : w = 8 ∨ w = 16) (r : Int) (hr : InRange 16 r) :
    ∃ q, Scaled m r (16 - w) q ∧ lutOutput m l (.fx w) r = some (clamp w q) := by
  rcases hw with rfl | rfl
  · cases m
    · obtain ⟨q, h1, h2⟩ := c05_cast_up_partial 16 8 (by omega) (by omega) r hr 8 (by left; norm_num)
      exact ⟨q, h1, by simp [lutOutput, h2]⟩
    · obtain ⟨q, h1, h2⟩ := c05_cast_convergent 16 8 (by omega) (by omega) r hr 8
      exact ⟨q, h1, by simp [lutOutput, h2]⟩
  · refine ⟨r, ?_, ?_⟩
    · unfold Scaled; cases m <;> simp [RoundHalfUp, RoundHalfEven]
    · simp [lutOutput, castFxSame, asrRndFx, clamp_of_inRange hr]

theorem inRange_mono {w v : Nat} (h : w ≤ v) {x : Int} (hx : InRange w x) : InRange v x := by
  have : (2 ^ (w - 1) : Int) ≤ 2 ^ (v - 1) := pow_le_pow_right₀ (by decide) (by omega)
  unfold InRange lo hi at *; omega

/-- C28/C29 for the sigmoid and tanh kernels on fixed-point tensors of any shape and strides: the
kernel succeeds, writes at each position of the output the table value of the input element at that
position, rounded to the element type, and nothing else. -/
theorem c29_activation_kernel_fx (m : Rnd) (l : Lut) (w : Nat) (hw : w = 8 ∨ w = 16) (inFrac : Int)
    (tin tout : Tensor) (mem : Buf) (hi : tin.Valid mem) (ho : tout.Valid mem) (hsh : tin.shape = tout.shape)
    (i1 : tin.strides.getLast? = some 1) (o1 : tout.strides.getLast? = some 1) (hsep : tin.Separate tout)
    (hl : l.Ok) (hd : l.Smooth) (hs : 0 < inFrac - l.inFrac)
    (hel : ∀ is, InShape tin.shape is → InRange w (mem.get (tin.addr is))) :
    ∃ mem' val, krnActivationFx m l w inFrac tin tout mem = some (.ok, mem') ∧ tout.Writes val mem mem' ∧
      ∀ is, InShape tin.shape is → ∃ r q,
        TableValue l.data.get l.length l.inOffset (min (inFrac - l.inFrac) 15).toNat
          (mem.get (tin.addr is) / 2 ^ (min (max (inFrac - l.inFrac - 15) 0) 15).toNat) r ∧
        Scaled m r (16 - w) q ∧ val is = clamp w q := by
  have key : ∀ is : List Int, ∃ y : Int, InShape tin.shape is →
      lutElem m l .fx (.fx w) inFrac (mem.get (tin.addr is)) = some y ∧ ∃ r q,
        TableValue l.data.get l.length l.inOffset (min (inFrac - l.inFrac) 15).toNat
          (mem.get (tin.addr is) / 2 ^ (min (max (inFrac - l.inFrac - 15) 0) 15).toNat) r ∧
        Scaled m r (16 - w) q ∧ y = clamp w q := by
    intro is
    by_cases his : InShape tin.shape is
    · have hv : InRange 32 (mem.get (tin.addr is)) := inRange_mono (by omega) (hel is his)
      obtain ⟨r, h1, h2⟩ := c29_interpolated m l inFrac _ hv hl hd hs
      obtain ⟨r', h1', hr⟩ := c28_interpolate_in_table m l inFrac _ hv hl hs
      obtain rfl : r = r' := by rw [h1] at h1'; exact Option.some.inj h1'
      obtain ⟨q, h3, h4⟩ := lutOutput_fx m l w hw r hr
      refine ⟨clamp w q, fun _ => ⟨?_, r, q, h2, h3, rfl⟩⟩
      unfold lutElem
      simp only []
      rw [interp_lutInterpolates (by simpa [lutFrac] using hs), if_pos rfl]
      show (lutInterp m l inFrac (mem.get (tin.addr is))).bind _ = _
      rw [h1, Option.bind_some, h4]
    · exact ⟨0, fun h => absurd h his⟩
  choose val hval using key
  obtain ⟨mem', h1, h2⟩ := map_unary tin tout mem hi ho hsh hsep (lutElem m l .fx (.fx w) inFrac) val
    (fun is his => (hval is his).1)
  refine ⟨mem', val, ?_, h2, fun is his => (hval is his).2⟩
  have hchk : chkBasicActivation tin tout = some .ok := by
    simp [chkBasicActivation, hi.accepted, ho.accepted, sameShape, hsh, innerOne, i1, o1]
  have hrun : activationLut m l .fx (.fx w) inFrac tin tout mem = some mem' := by
    unfold activationLut
    rw [c33_squash_invisible tin tout hsh hi.accepted ho.accepted]
    exact h1
  simp [krnActivationFx, hchk, hrun]

/-- What `mli_chk_basic_activation` accepts. -/
theorem chkBasicActivation_ok {tin tout : Tensor} (h : chkBasicActivation tin tout = some .ok) :
    tin.shape = tout.shape ∧ tin.strides.getLast?.getD 1 = 1 ∧ tout.strides.getLast?.getD 1 = 1 := by
  unfold chkBasicActivation at h
  simp only [Option.pure_def, Option.bind_eq_bind] at h
  rw [Option.bind_eq_some_iff] at h
  obtain ⟨s1, hs1, h⟩ := h
  split at h
  · rename_i h'; exact absurd (Option.some.inj h) h'
  rw [Option.bind_eq_some_iff] at h
  obtain ⟨s2, hs2, h⟩ := h
  split at h
  · rename_i h'; exact absurd (Option.some.inj h) h'
  split at h
  · cases h
  rename_i h1
  split at h
  · cases h
  rename_i h2
  simp only [sameShape, Bool.not_eq_true, Bool.not_eq_false', decide_eq_true_eq] at h1
  simp only [innerOne, Bool.not_eq_true, Bool.not_eq_false', Bool.and_eq_true] at h2
  refine ⟨h1, ?_, ?_⟩
  · have := h2.1
    cases e : tin.strides.getLast? with
    | none => rfl
    | some a => rw [e] at this; simpa using this
  · have := h2.2
    cases e : tout.strides.getLast? with
    | none => rfl
    | some a => rw [e] at this; simpa using this

/-- The activation kernels never touch memory when they report an error, and report success only for
tensors of one shape with an innermost stride of one. -/
theorem c29_activation_status (m : Rnd) (l : Lut) (w : Nat) (inFrac o sc sh oo osh : Int) (tin tout : Tensor)
    (mem mem' : Buf) (s : Status)
    (h : krnActivationFx m l w inFrac tin tout mem = some (s, mem') ∨
      krnActivationSa m l o sc sh oo osh tin tout mem = some (s, mem')) :
    (s ≠ .ok → mem' = mem) ∧
    (s = .ok → tin.shape = tout.shape ∧ tin.strides.getLast?.getD 1 = 1 ∧ tout.strides.getLast?.getD 1 = 1) := by
  rcases h with h | h
  all_goals
    first | unfold krnActivationFx at h | unfold krnActivationSa at h
    simp only [Option.pure_def, Option.bind_eq_bind] at h
    rw [Option.bind_eq_some_iff] at h
    obtain ⟨s1, hs1, h⟩ := h
    split at h
    · rename_i hne
      simp only [Option.some.injEq, Prod.mk.injEq] at h
      obtain ⟨rfl, rfl⟩ := h
      exact ⟨fun _ => rfl, fun e => absurd e hne⟩
    · rename_i hne
      rw [Option.bind_eq_some_iff] at h
      obtain ⟨m', hm', h⟩ := h
      simp only [Option.some.injEq, Prod.mk.injEq] at h
      obtain ⟨rfl, rfl⟩ := h
      have : s1 = .ok := by simpa using hne
      exact ⟨fun e => absurd rfl e, fun _ => chkBasicActivation_ok (this ▸ hs1)⟩

/-- Hypotheses met by an accepted and by a rejected call. -/
example :
    let t : Tensor := { dims := [⟨1, 2⟩, ⟨2, 1⟩], cap := 2, es := 1 }
    let u : Tensor := { dims := [⟨2, 1⟩, ⟨1, 1⟩], cap := 2, es := 1 }
    let l : Lut := ⟨Buf.ofList [10, 20, 40], 3, 4, 15, 1⟩
    ((krnActivationFx .convergent l 8 6 t t (Buf.ofList [3, 9])).map (·.1) = some .ok) ∧
    ((krnActivationFx .convergent l 8 6 t u (Buf.ofList [3, 9])).map (·.1) = some .shapeMismatch) := by
  decide +kernel

/-- The same kernels when the input has no more fractional bits than the table: no interpolation, the
entry at the position of the input element (or the nearest one), rounded to the element type. -/
theorem c29_activation_kernel_plain (m : Rnd) (l : Lut) (w : Nat) (hw : w = 8 ∨ w = 16) (inFrac : Int)
    (tin tout : Tensor) (mem : Buf) (hi : tin.Valid mem) (ho : tout.Valid mem) (hsh : tin.shape = tout.shape)
    (i1 : tin.strides.getLast? = some 1) (o1 : tout.strides.getLast? = some 1) (hsep : tin.Separate tout)
    (hl : l.Ok) (hs : inFrac - l.inFrac ≤ 0)
    (hel : ∀ is, InShape tin.shape is → InRange w (mem.get (tin.addr is))) :
    ∃ mem' val, krnActivationFx m l w inFrac tin tout mem = some (.ok, mem') ∧ tout.Writes val mem mem' ∧
      ∀ is, InShape tin.shape is → ∃ q,
        Scaled m (l.data.get (max 0 (min (l.length - 1)
          (clamp 32 (mem.get (tin.addr is) * 2 ^ (l.inFrac - inFrac).toNat) + l.inOffset)))) (16 - w) q ∧
        val is = clamp w q := by
  have key : ∀ is : List Int, ∃ y : Int, InShape tin.shape is →
      lutElem m l .fx (.fx w) inFrac (mem.get (tin.addr is)) = some y ∧ ∃ q,
        Scaled m (l.data.get (max 0 (min (l.length - 1)
          (clamp 32 (mem.get (tin.addr is) * 2 ^ (l.inFrac - inFrac).toNat) + l.inOffset)))) (16 - w) q ∧
        y = clamp w q := by
    intro is
    by_cases his : InShape tin.shape is
    · have hv : InRange 32 (mem.get (tin.addr is)) := inRange_mono (by omega) (hel is his)
      obtain ⟨k1, k2, k3, k4, k5⟩ := hl
      have h1 := c28_plain_in_table l inFrac _ hv hs (by omega) (by omega) k3 k5
      obtain ⟨q, h3, h4⟩ := lutOutput_fx m l w hw _ (k4 (max 0 (min (l.length - 1)
          (clamp 32 (mem.get (tin.addr is) * 2 ^ (l.inFrac - inFrac).toNat) + l.inOffset))) (by omega) (by omega))
      refine ⟨clamp w q, fun _ => ⟨?_, q, h3, rfl⟩⟩
      have hni : lutInterpolates l .fx inFrac = false := by
        unfold lutInterpolates lutFrac minFx
        simp only [gt_iff_lt, decide_eq_false_iff_not]
        split <;> omega
      unfold lutElem
      simp only []
      rw [hni, if_neg (by simp)]
      show (lutPlain l inFrac (mem.get (tin.addr is))).bind _ = _
      rw [h1, Option.bind_some, h4]
    · exact ⟨0, fun h => absurd h his⟩
  choose val hval using key
  obtain ⟨mem', h1, h2⟩ := map_unary tin tout mem hi ho hsh hsep (lutElem m l .fx (.fx w) inFrac) val
    (fun is his => (hval is his).1)
  refine ⟨mem', val, ?_, h2, fun is his => (hval is his).2⟩
  have hchk : chkBasicActivation tin tout = some .ok := by
    simp [chkBasicActivation, hi.accepted, ho.accepted, sameShape, hsh, innerOne, i1, o1]
  have hrun : activationLut m l .fx (.fx w) inFrac tin tout mem = some mem' := by
    unfold activationLut
    rw [c33_squash_invisible tin tout hsh hi.accepted ho.accepted]
    exact h1
  simp [krnActivationFx, hchk, hrun]

/-- Hypotheses met: two fractional bits in, four in the table, in place. -/
example :
    let t : Tensor := { dims := [⟨2, 1⟩], cap := 2, es := 1 }
    let l : Lut := ⟨Buf.ofList [10, 2000, 4000], 3, 4, 15, 1⟩
    let mem := Buf.ofList [0, 9]
    t.Valid mem ∧ t.strides.getLast? = some 1 ∧ l.Ok ∧
    (krnActivationFx .convergent l 8 2 t t mem).map (fun p => (p.1, p.2.toList)) = some (.ok, [8, 16]) := by
  refine ⟨⟨by decide, by decide, by decide, by decide⟩, by decide, ⟨by decide, by decide, by decide, ?_, by decide⟩, by decide +kernel⟩
  intro i h0 h3
  have : i = 0 ∨ i = 1 ∨ i = 2 := by simp only at h3; omega
  rcases this with rfl | rfl | rfl <;> decide

/-- The SA8 input conversion: the real value of the element with `f` fractional bits. -/
theorem lutInput_sa (m : Rnd) (o sc sh f v : Int) (hv : InRange 8 v) (ho : InRange 8 o) (hsc : InRange 16 sc) :
    ∃ q, Scaled m ((v - o) * sc) (sh - f) q ∧ lutInput m (.sa o sc sh) f v = clamp 32 q := by
  have e1 : lo 8 = -128 := by decide
  have e2 : hi 8 = 127 := by decide
  have e3 : lo 16 = -32768 := by decide
  have e4 : hi 16 = 32767 := by decide
  have e5 : lo 32 = -2147483648 := by decide
  have e6 : hi 32 = 2147483647 := by decide
  obtain ⟨v1, v2⟩ := hv
  obtain ⟨o1, o2⟩ := ho
  obtain ⟨s1, s2⟩ := hsc
  have hw : InRange 16 (v - o) := ⟨by omega, by omega⟩
  have hp1 : -8388608 ≤ (v - o) * sc ∧ (v - o) * sc ≤ 8388608 := by
    rw [e3] at s1; rw [e4] at s2; rw [e1] at v1 o1; rw [e2] at v2 o2
    constructor <;> nlinarith
  have hp : InRange 32 ((v - o) * sc) := ⟨by omega, by omega⟩
  unfold lutInput castFxSame
  simp only []
  rw [wrap_of_inRange (by omega) hw]
  generalize (v - o) * sc = p at *
  rcases Int.lt_or_le (sh - f) 0 with h | h
  · obtain ⟨k, hk⟩ : ∃ k : Nat, sh - f = -(k : Int) := ⟨(-(sh - f)).toNat, by omega⟩
    refine ⟨p * 2 ^ k, ?_, ?_⟩
    · unfold Scaled; rw [if_neg (by omega), hk]; simp
    · rw [hk, asrRnd_neg (by omega) hp]
  · obtain ⟨k, hk⟩ : ∃ k : Nat, sh - f = (k : Int) := ⟨(sh - f).toNat, by omega⟩
    rw [hk]
    have hrd : asrRndFx m 32 p (k : Int) = rnd m p k := by
      apply asrRnd_eq_rnd m (by omega) hp
      by_cases h32 : 32 ≤ k
      · right; left; exact h32
      · right; right
        have : (2 ^ (k - 1) : Int) ≤ 2 ^ 30 := pow_le_pow_right₀ (by decide) (by omega)
        omega
    refine ⟨rnd m p k, rnd_scaled m p k, ?_⟩
    rw [hrd, clamp_of_inRange]
    rw [← hrd]; exact asrRnd_inRange m (by omega) hp _

/-- The SA8 output conversion: rounding to the output scale, then the zero point, then the clamp. -/
theorem lutOutput_sa (m : Rnd) (l : Lut) (oo osh r : Int) (hr : InRange 16 r) (hoo : InRange 8 oo)
    (hsh : 0 ≤ l.outFrac - osh) :
    ∃ q, Scaled m r (l.outFrac - osh) q ∧ lutOutput m l (.sa oo osh) r = some (clamp 8 (q + oo)) := by
  have e1 : lo 8 = -128 := by decide
  have e2 : hi 8 = 127 := by decide
  have e3 : lo 16 = -32768 := by decide
  have e4 : hi 16 = 32767 := by decide
  have e5 : lo 32 = -2147483648 := by decide
  have e6 : hi 32 = 2147483647 := by decide
  obtain ⟨k, hk⟩ : ∃ k : Nat, l.outFrac - osh = (k : Int) := ⟨(l.outFrac - osh).toNat, by omega⟩
  have hr32 : InRange 32 r := inRange_mono (by omega) hr
  obtain ⟨r1, r2⟩ := hr
  obtain ⟨o1, o2⟩ := hoo
  have hrd : asrRndFx m 32 r (k : Int) = rnd m r k := by
    apply asrRnd_eq_rnd m (by omega) hr32
    by_cases h32 : 32 ≤ k
    · right; left; exact h32
    · right; right
      have : (2 ^ (k - 1) : Int) ≤ 2 ^ 30 := pow_le_pow_right₀ (by decide) (by omega)
      omega
  have hq : InRange 16 (rnd m r k) := by
    cases m
    · exact rhu_inRange (by omega) ⟨r1, r2⟩ k
    · exact rhe_inRange ⟨r1, r2⟩ k
  refine ⟨rnd m r k, by rw [hk]; exact rnd_scaled m r k, ?_⟩
  obtain ⟨q1, q2⟩ := hq
  have hsum : InRange 32 (rnd m r k + oo) := ⟨by omega, by omega⟩
  unfold lutOutput ckd
  simp only []
  rw [hk, hrd, if_pos hsum, Option.map_some, accCast8_eq m hsum]
  simp [asrRndFx]

/-- C28/C29 for the sigmoid and tanh kernels on SA8 tensors: per element, the input value rounded to
the fraction bits of the table lookup, the table value, and the output quantisation. -/
theorem c29_activation_kernel_sa (m : Rnd) (l : Lut) (o sc sh oo osh : Int)
    (tin tout : Tensor) (mem : Buf) (hi : tin.Valid mem) (ho : tout.Valid mem) (hsh : tin.shape = tout.shape)
    (i1 : tin.strides.getLast? = some 1) (o1 : tout.strides.getLast? = some 1) (hsep : tin.Separate tout)
    (hl : l.Ok) (hd : l.Smooth) (hfr : InRange 8 (l.inFrac + 8))
    (hzp : InRange 8 o) (hsc : InRange 16 sc) (hoo : InRange 8 oo) (hos : osh ≤ l.outFrac)
    (hel : ∀ is, InShape tin.shape is → InRange 8 (mem.get (tin.addr is))) :
    ∃ mem' val, krnActivationSa m l o sc sh oo osh tin tout mem = some (.ok, mem') ∧ tout.Writes val mem mem' ∧
      ∀ is, InShape tin.shape is → ∃ x r q,
        Scaled m ((mem.get (tin.addr is) - o) * sc) (sh - (l.inFrac + 8)) x ∧
        TableValue l.data.get l.length l.inOffset 8 (clamp 32 x) r ∧
        Scaled m r (l.outFrac - osh) q ∧ val is = clamp 8 (q + oo) := by
  have ef : lutFrac l (.sa o sc sh) 0 = l.inFrac + 8 := by
    unfold lutFrac
    simp only []
    rw [show 15 - (7 - l.inFrac) = l.inFrac + 8 by omega]
    exact wrap_of_inRange (by omega) hfr
  have key : ∀ is : List Int, ∃ y : Int, InShape tin.shape is →
      lutElem m l (.sa o sc sh) (.sa oo osh) 0 (mem.get (tin.addr is)) = some y ∧ ∃ x r q,
        Scaled m ((mem.get (tin.addr is) - o) * sc) (sh - (l.inFrac + 8)) x ∧
        TableValue l.data.get l.length l.inOffset 8 (clamp 32 x) r ∧
        Scaled m r (l.outFrac - osh) q ∧ y = clamp 8 (q + oo) := by
    intro is
    by_cases his : InShape tin.shape is
    · obtain ⟨x, hx1, hx2⟩ := lutInput_sa m o sc sh (l.inFrac + 8) _ (hel is his) hzp hsc
      have hv : InRange 32 (clamp 32 x) := clamp_inRange _ _
      obtain ⟨r, h1, h2⟩ := c29_interpolated m l (l.inFrac + 8) _ hv hl hd (by omega)
      obtain ⟨r', h1', hr⟩ := c28_interpolate_in_table m l (l.inFrac + 8) _ hv hl (by omega)
      obtain rfl : r = r' := by rw [h1] at h1'; exact Option.some.inj h1'
      obtain ⟨q, h3, h4⟩ := lutOutput_sa m l oo osh r hr hoo (by omega)
      rw [show l.inFrac + 8 - l.inFrac = 8 by omega] at h2
      norm_num at h2
      refine ⟨clamp 8 (q + oo), fun _ => ⟨?_, x, r, q, hx1, h2, h3, rfl⟩⟩
      unfold lutElem
      simp only []
      rw [interp_lutInterpolates (by rw [ef]; omega), if_pos rfl, ef, hx2, h1, Option.bind_some, h4]
    · exact ⟨0, fun h => absurd h his⟩
  choose val hval using key
  obtain ⟨mem', h1, h2⟩ := map_unary tin tout mem hi ho hsh hsep
    (lutElem m l (.sa o sc sh) (.sa oo osh) 0) val (fun is his => (hval is his).1)
  refine ⟨mem', val, ?_, h2, fun is his => (hval is his).2⟩
  have hchk : chkBasicActivation tin tout = some .ok := by
    simp [chkBasicActivation, hi.accepted, ho.accepted, sameShape, hsh, innerOne, i1, o1]
  have hrun : activationLut m l (.sa o sc sh) (.sa oo osh) 0 tin tout mem = some mem' := by
    unfold activationLut
    rw [c33_squash_invisible tin tout hsh hi.accepted ho.accepted]
    exact h1
  simp [krnActivationSa, hchk, hrun]

/-! ## the library's own tables -/

/-- All neighbouring entries satisfy `p`. -/
def adjAll (p : Int → Int → Bool) : List Int → Bool
  | [] => true
  | [_] => true
  | a :: b :: l => p a b && adjAll p (b :: l)

theorem adjAll_get {p : Int → Int → Bool} : ∀ {l : List Int}, adjAll p l = true →
    ∀ n, n + 1 < l.length → p (l.getD n 0) (l.getD (n + 1) 0) = true := by
  intro l
  induction l with
  | nil => intro _ n h; simp at h
  | cons a l ih =>
    intro h n hn
    cases l with
    | nil => simp at hn
    | cons b l =>
      simp only [adjAll, Bool.and_eq_true] at h
      cases n with
      | zero => simpa using h.1
      | succ n => simpa using ih h.2 n (by simpa using hn)

theorem all_get {p : Int → Bool} {l : List Int} (h : l.all p = true) (n : Nat) (hn : n < l.length) :
    p (l.getD n 0) = true := by
  rw [show l.getD n 0 = l[n] by simp [List.getD, hn]]
  exact List.all_eq_true.mp h _ (List.getElem_mem hn)

/-- Order of a table: nondecreasing. -/
def Lut.Mono (l : Lut) : Prop := ∀ i, 0 ≤ i → i < l.length - 1 → l.data.get i ≤ l.data.get (i + 1)

theorem table_ok {tab : List Int} {f o off : Int}
    (h1 : tab.all (fun x => decide (InRange 16 x)) = true) (h2 : 2 ≤ tab.length) (h3 : tab.length ≤ 2147483647)
    (h4 : InRange 32 off) : Lut.Ok ⟨Buf.ofList tab, tab.length, f, o, off⟩ := by
  refine ⟨by simp only; omega, by simp only; omega, by simp [Buf.ofList], ?_, h4⟩
  intro i h0 hi
  have := all_get h1 i.toNat (by simp only at hi; omega)
  simpa [Buf.ofList] using this

theorem table_adj {tab : List Int} {p : Int → Int → Bool} (h : adjAll p tab = true) (i : Int) (h0 : 0 ≤ i)
    (hi : i < (tab.length : Int) - 1) :
    p ((Buf.ofList tab).get i) ((Buf.ofList tab).get (i + 1)) = true := by
  have := adjAll_get h i.toNat (by omega)
  have e : (i + 1).toNat = i.toNat + 1 := by omega
  simpa [Buf.ofList, e] using this

theorem smooth_of_adj {l : Lut} {tab : List Int} (hd : l.data = Buf.ofList tab) (hn : l.length = tab.length)
    (h : adjAll (fun a b => decide (InRange 16 (a - b))) tab = true) : l.Smooth := by
  intro i h0 hi
  rw [hd]
  simpa using table_adj h i h0 (by omega)

theorem mono_of_adj {l : Lut} {tab : List Int} (hd : l.data = Buf.ofList tab) (hn : l.length = tab.length)
    (h : adjAll (fun a b => decide (a ≤ b)) tab = true) : l.Mono := by
  intro i h0 hi
  rw [hd]
  simpa using table_adj h i h0 (by omega)

set_option maxRecDepth 4000 in
/-- The tables of the library meet the requirements of the theorems above. -/
theorem sigmoid_ok : sigmoidLut.Ok ∧ sigmoidLut.Smooth ∧ sigmoidLut.Mono :=
  ⟨table_ok (tab := sigmoidTable) (by decide) (by decide) (by decide) (by decide),
   smooth_of_adj (tab := sigmoidTable) rfl (by decide) (by decide),
   mono_of_adj (tab := sigmoidTable) rfl (by decide) (by decide)⟩

set_option maxRecDepth 4000 in
theorem tanh_ok : tanhLut.Ok ∧ tanhLut.Smooth ∧ tanhLut.Mono :=
  ⟨table_ok (tab := tanhTable) (by decide) (by decide) (by decide) (by decide),
   smooth_of_adj (tab := tanhTable) rfl (by decide) (by decide),
   mono_of_adj (tab := tanhTable) rfl (by decide) (by decide)⟩

set_option maxRecDepth 4000 in
theorem expneg_ok : expnegLut.Ok ∧ expnegLut.Smooth ∧ expnegLut.Mono :=
  ⟨table_ok (tab := expnegTable) (by decide) (by decide) (by decide) (by decide),
   smooth_of_adj (tab := expnegTable) rfl (by decide) (by decide),
   mono_of_adj (tab := expnegTable) rfl (by decide) (by decide)⟩

/-- The hypotheses of the kernel theorems are met by the sigmoid table and a tensor with a row pitch,
processed in place. -/
example :
    let t : Tensor := { dims := [⟨2, 3⟩, ⟨2, 1⟩], cap := 12, es := 2, base := 1 }
    let mem := Buf.ofList [9, 100, -100, 9, 3000, -3000, 9]
    t.Valid mem ∧ t.Separate t ∧ t.strides.getLast? = some 1 ∧ 0 < 8 - sigmoidLut.inFrac ∧
    (krnActivationFx .convergent sigmoidLut 16 8 t t mem).map (fun p => (p.1, p.2.toList)) =
      some (.ok, [9, 19543, 13225, 9, 32766, 1, 9]) := by
  have hv : Tensor.Valid { dims := [⟨2, 3⟩, ⟨2, 1⟩], cap := 12, es := 2, base := 1 }
      (Buf.ofList [9, 100, -100, 9, 3000, -3000, 9]) := ⟨by decide, by decide, by decide, by decide⟩
  exact ⟨hv, Tensor.Separate.refl _ _ hv, by decide, by decide, by decide +kernel⟩

example :
    let t : Tensor := { dims := [⟨2, 3⟩, ⟨2, 1⟩], cap := 6, es := 1, base := 1 }
    let mem := Buf.ofList [9, 100, -100, 9, 30, -3, 9]
    t.Valid mem ∧ InRange 8 (tanhLut.inFrac + 8) ∧ (7 : Int) ≤ tanhLut.outFrac ∧
    (krnActivationSa .up tanhLut 3 50 10 0 7 t t mem).map (fun p => (p.1, p.2.toList)) =
      some (.ok, [9, 127, -128, 9, 111, -36, 9]) := by
  exact ⟨⟨by decide, by decide, by decide, by decide⟩, by decide, by decide, by decide +kernel⟩

/-! ## C53: order of the activations -/

theorem Lut.Mono.le {l : Lut} (h : l.Mono) {i j : Int} (h0 : 0 ≤ i) (hij : i ≤ j) (hj : j < l.length) :
    l.data.get i ≤ l.data.get j := by
  obtain ⟨k, rfl⟩ : ∃ k : Nat, j = i + k := ⟨(j - i).toNat, by omega⟩
  induction k with
  | zero => simp
  | succ k ih =>
    have h1 := ih (by omega) (by omega)
    have h2 := h (i + k) (by omega) (by omega)
    have e : i + (k : Int) + 1 = i + ((k + 1 : Nat) : Int) := by push_cast; ring
    rw [e] at h2; omega

/-- Closed form for smooth tables. -/
theorem lutInterp_smooth (m : Rnd) (l : Lut) (f v : Int) (hv : InRange 32 v) (hl : l.Ok) (hd : l.Smooth)
    (hs : 0 < f - l.inFrac) :
    let s := (min (f - l.inFrac) 15).toNat
    let x := v / 2 ^ (min (max (f - l.inFrac - 15) 0) 15).toNat
    let i := max 0 (min (l.length - 2) (x / 2 ^ s + l.inOffset))
    lutInterp m l f v = some (l.data.get i - rnd m ((l.data.get i - l.data.get (i + 1)) * (x % 2 ^ s)) s) ∧
      Between (l.data.get i) (l.data.get (i + 1))
        (l.data.get i - rnd m ((l.data.get i - l.data.get (i + 1)) * (x % 2 ^ s)) s) := by
  intro s x i
  have h := lutInterp_eq m l f v hv hl hs
  simp only [] at h
  change lutInterp m l f v = some (wrap 16 (l.data.get i -
      clamp 16 (rnd m (wrap 16 (l.data.get i - l.data.get (i + 1)) * (x % 2 ^ s)) s))) at h
  have hi1 : 0 ≤ i ∧ i ≤ l.length - 2 := by have := hl.two; omega
  have hdi := hd i hi1.1 (by omega)
  rw [wrap_of_inRange (by omega) hdi] at h
  have ha := hl.entries i hi1.1 (by omega)
  have hb := hl.entries (i + 1) (by omega) (by omega)
  have hp := two_pow_pos s
  have hm0 := Int.emod_nonneg x (show (2 ^ s : Int) ≠ 0 by omega)
  have hm1 := Int.emod_lt_of_pos x hp
  have hn := rnd_nearest m ((l.data.get i - l.data.get (i + 1)) * (x % 2 ^ s)) s
  have hfr := nearest_frac hn hm0 hm1
  generalize rnd m ((l.data.get i - l.data.get (i + 1)) * (x % 2 ^ s)) s = q at *
  generalize l.data.get i = a at *
  generalize l.data.get (i + 1) = b at *
  obtain ⟨d1, d2⟩ := hdi
  obtain ⟨a1, a2⟩ := ha
  obtain ⟨b1, b2⟩ := hb
  have hq : InRange 16 q := by
    have h1 := lo_neg 16; have h2 := hi_nonneg 16
    rcases Int.le_total 0 (a - b) with h | h
    · have := hfr.1 h; exact ⟨by omega, by omega⟩
    · have := hfr.2 h; exact ⟨by omega, by omega⟩
  rw [clamp_of_inRange hq] at h
  have hbt : Between a b (a - q) := by
    rcases Int.le_total 0 (a - b) with h | h
    · right; have := hfr.1 h; omega
    · left; have := hfr.2 h; omega
  have hr : InRange 16 (a - q) := by
    rcases hbt with h | h
    · exact ⟨by omega, by omega⟩
    · exact ⟨by omega, by omega⟩
  rw [wrap_of_inRange (by omega) hr] at h
  exact ⟨h, hbt⟩

/-- The input selects a cell of the table itself (not the first or last one by default). -/
def Lut.Inside (l : Lut) (f v : Int) : Prop :=
  let s := (min (f - l.inFrac) 15).toNat
  let x := v / 2 ^ (min (max (f - l.inFrac - 15) 0) 15).toNat
  0 ≤ x / 2 ^ s + l.inOffset ∧ x / 2 ^ s + l.inOffset ≤ l.length - 2

/-- A table in order gives an activation in order, for inputs inside of the range of the table;
outside, two values can be out of order by at most the step between the first or last two entries. -/
theorem c53_monotone_partial (m : Rnd) (l : Lut) (f v v' : Int) (hv : InRange 32 v) (hv' : InRange 32 v') (hl : l.Ok)
    (hd : l.Smooth) (ho : l.Mono) (hs : 0 < f - l.inFrac) (h : v ≤ v') :
    ∃ r r', lutInterp m l f v = some r ∧ lutInterp m l f v' = some r' ∧
      (l.Inside f v ∧ l.Inside f v' → r ≤ r') ∧
      r ≤ r' + max (l.data.get 1 - l.data.get 0) (l.data.get (l.length - 1) - l.data.get (l.length - 2)) := by
  obtain ⟨h1, b1⟩ := lutInterp_smooth m l f v hv hl hd hs
  obtain ⟨h2, b2⟩ := lutInterp_smooth m l f v' hv' hl hd hs
  refine ⟨_, _, h1, h2, ?_⟩
  clear h1 h2
  unfold Lut.Inside
  simp only [] at b1 b2 ⊢
  have hx : v / 2 ^ (min (max (f - l.inFrac - 15) 0) 15).toNat ≤ v' / 2 ^ (min (max (f - l.inFrac - 15) 0) 15).toNat :=
    div_mono h _
  generalize v / 2 ^ (min (max (f - l.inFrac - 15) 0) 15).toNat = x at *
  generalize v' / 2 ^ (min (max (f - l.inFrac - 15) 0) 15).toNat = y at *
  generalize (min (f - l.inFrac) 15).toNat = s at *
  have hxy : x / 2 ^ s ≤ y / 2 ^ s := div_mono hx s
  have hp := two_pow_pos s
  have ex := Int.mul_ediv_add_emod x (2 ^ s)
  have ey := Int.mul_ediv_add_emod y (2 ^ s)
  have htwo := hl.two
  generalize hi : max 0 (min (l.length - 2) (x / 2 ^ s + l.inOffset)) = i at *
  generalize hj : max 0 (min (l.length - 2) (y / 2 ^ s + l.inOffset)) = j at *
  have hij : i ≤ j ∧ 0 ≤ i ∧ j ≤ l.length - 2 := by omega
  have oi := ho i (by omega) (by omega)
  have oj := ho j (by omega) (by omega)
  have o0 := ho 0 (by omega) (by omega)
  have on := ho (l.length - 2) (by omega) (by omega)
  rw [show l.length - 2 + 1 = l.length - 1 by ring] at on
  rw [show (0 : Int) + 1 = 1 from rfl] at o0
  unfold Between at b1 b2
  by_cases hlt : i < j
  · have := ho.le (i := i + 1) (j := j) (by omega) (by omega) (by omega)
    constructor
    · intro _; omega
    · omega
  · obtain rfl : i = j := by omega
    constructor
    · rintro ⟨⟨c1, c2⟩, c3, c4⟩
      have hq : x / 2 ^ s = y / 2 ^ s := by omega
      have ht : x % 2 ^ s ≤ y % 2 ^ s := by rw [hq] at ex; omega
      have hmul : (l.data.get i - l.data.get (i + 1)) * (y % 2 ^ s) ≤
          (l.data.get i - l.data.get (i + 1)) * (x % 2 ^ s) :=
        Int.mul_le_mul_of_nonpos_left (by omega) ht
      have := rnd_mono m hmul s
      omega
    · by_cases e0 : i = 0
      · subst e0
        rw [show (0 : Int) + 1 = 1 from rfl] at b1 b2 ⊢
        omega
      · by_cases en : i = l.length - 2
        · rw [en, show l.length - 2 + 1 = l.length - 1 by ring] at b1 b2
          rw [en, show l.length - 2 + 1 = l.length - 1 by ring]
          omega
        · have hq1 : x / 2 ^ s = y / 2 ^ s := by omega
          have ht : x % 2 ^ s ≤ y % 2 ^ s := by rw [hq1] at ex; omega
          have hmul : (l.data.get i - l.data.get (i + 1)) * (y % 2 ^ s) ≤
              (l.data.get i - l.data.get (i + 1)) * (x % 2 ^ s) :=
            Int.mul_le_mul_of_nonpos_left (by omega) ht
          have := rnd_mono m hmul s
          omega

/-- With the library's tables: the exponential is monotone for all inputs and scalings; sigmoid and
tanh are monotone up to one unit of the 16-bit result. -/
theorem c53_library_tables (m : Rnd) (f v v' : Int) (hv : InRange 32 v) (hv' : InRange 32 v') (h : v ≤ v') :
    (5 < f → ∃ r r', lutInterp m expnegLut f v = some r ∧ lutInterp m expnegLut f v' = some r' ∧ r ≤ r') ∧
    (4 < f → ∃ r r', lutInterp m sigmoidLut f v = some r ∧ lutInterp m sigmoidLut f v' = some r' ∧ r ≤ r' + 1) ∧
    (5 < f → ∃ r r', lutInterp m tanhLut f v = some r ∧ lutInterp m tanhLut f v' = some r' ∧ r ≤ r' + 1) := by
  refine ⟨fun hf => ?_, fun hf => ?_, fun hf => ?_⟩
  · obtain ⟨a, b, c⟩ := expneg_ok
    obtain ⟨r, r', h1, h2, -, h3⟩ := c53_monotone_partial m expnegLut f v v' hv hv' a b c (by simp [expnegLut]; omega) h
    refine ⟨r, r', h1, h2, ?_⟩
    have e : max (expnegLut.data.get 1 - expnegLut.data.get 0)
      (expnegLut.data.get (expnegLut.length - 1) - expnegLut.data.get (expnegLut.length - 2)) = 0 := by decide
    omega
  · obtain ⟨a, b, c⟩ := sigmoid_ok
    obtain ⟨r, r', h1, h2, -, h3⟩ := c53_monotone_partial m sigmoidLut f v v' hv hv' a b c (by simp [sigmoidLut]; omega) h
    refine ⟨r, r', h1, h2, ?_⟩
    have e : max (sigmoidLut.data.get 1 - sigmoidLut.data.get 0)
      (sigmoidLut.data.get (sigmoidLut.length - 1) - sigmoidLut.data.get (sigmoidLut.length - 2)) = 1 := by decide
    omega
  · obtain ⟨a, b, c⟩ := tanh_ok
    obtain ⟨r, r', h1, h2, -, h3⟩ := c53_monotone_partial m tanhLut f v v' hv hv' a b c (by simp [tanhLut]; omega) h
    refine ⟨r, r', h1, h2, ?_⟩
    have e : max (tanhLut.data.get 1 - tanhLut.data.get 0)
      (tanhLut.data.get (tanhLut.length - 1) - tanhLut.data.get (tanhLut.length - 2)) = 1 := by decide
    omega

set_option maxRecDepth 4000 in
/-- Sigmoid is not monotone: far below the range of the table the value oscillates between the
first two entries, and tanh does the same far above it. -/
theorem c53_sigmoid_violated :
    ∃ v v' r r', InRange 16 v ∧ InRange 16 v' ∧ v < v' ∧
      lutElem .convergent sigmoidLut .fx (.fx 16) 8 v = some r ∧
      lutElem .convergent sigmoidLut .fx (.fx 16) 8 v' = some r' ∧ r' < r := by
  refine ⟨-2561, -2560, 2, 1, by decide, by decide, by decide, by decide, by decide, by decide⟩

end Mli
