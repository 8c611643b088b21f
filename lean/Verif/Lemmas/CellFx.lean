import Verif.Lemmas.CellChk
import Verif.Props.LutReal
import Verif.Props.Eltwise

/-! # The fixed-point parts of the recurrent cells -/

namespace Mli

open Spec

/-! ## Activations -/

theorem castFx_range (m : Rnd) (wi wo : Nat) (x s : Int) : InRange wo (castFx m wi wo x s) := wrap_inRange _

theorem actFx {l : Lut} {g : ℝ → ℝ} {E C B L e : ℝ} (h : Approx l g E C B L) (hL : 0 ≤ L) (hC : 0 ≤ C) (hsm : l.Small) (hl : l.Ok) (hd : l.Smooth)
    (he : lutErr l E C B L ≤ e) (m : Rnd) (f : Int) :
    ∃ sg, ActOk 16 (krnActivationFx m l 16 f) sg ∧ ∀ v, InRange 16 v → Near e (2 ^ 15 * g (fxReal v f)) (sg v) := by
  have key : ∀ v : Int, ∃ y : Int, InRange 16 v → lutElem m l .fx (.fx 16) f v = some y ∧ InRange 16 y ∧ Near e (2 ^ 15 * g (fxReal v f)) y := by
    intro v
    by_cases hv : InRange 16 v
    · obtain ⟨r, hr, h1, h2⟩ := h.elem hL hC hsm m (.fx 16) f v hv hl hd
      obtain ⟨q, h3, h4⟩ := lutOutput_fx m l 16 (Or.inr rfl) r hr
      refine ⟨clamp 16 q, fun _ => ⟨by rw [h2, h4], clamp_inRange _ _, ?_⟩⟩
      have : q = r := scaled_unique h3 (by unfold Scaled; cases m <;> simp [RoundHalfUp, RoundHalfEven])
      rw [this, clamp_of_inRange hr]
      exact h1.trans he
    · exact ⟨0, fun h => absurd h hv⟩
  choose sg hsg using key
  refine ⟨sg, actOk_lut (m := m) (l := l) (ci := .fx) (co := .fx 16) (fr := f) (fun v hv => (hsg v hv).2.1) (fun v hv => (hsg v hv).1) ?_,
    fun v hv => (hsg v hv).2.2⟩
  intro ti tu d hchk
  unfold krnActivationFx
  simp only [hchk, Option.bind_eq_bind, Option.bind_some, ne_eq, not_true_eq_false, if_false]
  cases activationLut m l .fx (.fx 16) f ti tu d <;> rfl

theorem sigmFx (m : Rnd) (f : Int) :
    ∃ sg, ActOk 16 (krnActivationFx m sigmoidLut 16 f) sg ∧ ∀ v, InRange 16 v → Near 2.7 (2 ^ 15 * Real.sigmoid (fxReal v f)) (sg v) :=
  actFx sigmoid_approx (by norm_num) (by norm_num) sigmoid_small sigmoid_ok.1 sigmoid_ok.2.1
    (by unfold lutErr; simp only [sigmoidLut]; norm_num) m f

theorem tanhFx (m : Rnd) (f : Int) :
    ∃ th, ActOk 16 (krnActivationFx m tanhLut 16 f) th ∧ ∀ v, InRange 16 v → Near 4.4 (2 ^ 15 * Real.tanh (fxReal v f)) (th v) :=
  actFx tanh_approx (by norm_num) (by norm_num) tanh_small tanh_ok.1 tanh_ok.2.1
    (by unfold lutErr; simp only [tanhLut]; norm_num) m f

/-! ## Products and sums -/

theorem prodFx (m : Rnd) {f1 f2 fo a b : Int} (ha : InRange 16 a) (hb : InRange 16 b) (h : m = .convergent ∨ f1 + f2 - fo ≤ 31) :
    ProdFx m f1 f2 fo a b (eltFx m 16 .mul (eltParamsFx 16 .mul f1 f2 fo) a b) := by
  obtain ⟨q, h1, h2⟩ := c31_fx_exact_partial m 16 (Or.inr rfl) .mul f1 f2 fo a b ha hb (by simp) (fun _ => h.imp_right fun h => by omega) (by simp)
  exact ⟨q, h2, h1⟩

theorem sumFx (m : Rnd) {f1 f2 fo a b : Int} (ha : InRange 16 a) (hb : InRange 16 b) (h1 : |f1 - f2| ≤ 15) (h2 : max f1 f2 - fo ≤ 31) :
    SumFx m f1 f2 fo a b (eltFx m 16 .add (eltParamsFx 16 .add f1 f2 fo) a b) := by
  obtain ⟨q, h1, h2⟩ := c31_fx_exact_partial m 16 (Or.inr rfl) .add f1 f2 fo a b ha hb (fun _ => ⟨by push_cast; omega, by push_cast; omega⟩) (by simp) (by simp)
  exact ⟨q, h2, h1⟩

theorem mulFx_range (m : Rnd) (w : Nat) (p : EltParams) (a b : Int) : InRange w (eltFx m w .mul p a b) := castFx_range _ _ _ _ _
theorem addFx_range (m : Rnd) (w : Nat) (p : EltParams) (a b : Int) : InRange w (eltFx m w .add p a b) := castFx_range _ _ _ _ _

/-! ## Dense part -/

/-- The weights as the specification sees them. -/
def CellArgs.w (a : CellArgs) : CellW :=
  { wi := fun g i o => a.wi.get (a.twi.addr [(g : Int), i, o]), wo := fun g i o => a.wo.get (a.two.addr [(g : Int), i, o])
    b := fun g o => a.bias.get (a.tb.addr [(g : Int), o]) }

theorem abs_dotSum_le {n : Int} {X W : Int → Int} {B : Int} (h0 : 0 ≤ n) (h : ∀ i, 0 ≤ i → i < n → |X i * W i| ≤ B) : |dotSum n X W| ≤ n * B := by
  unfold dotSum
  refine (Finset.abs_sum_le_sum_abs _ _).trans ?_
  refine (Finset.sum_le_card_nsmul _ _ B fun i hi => ?_).trans ?_
  · have := Finset.mem_range.1 hi
    exact h i (by omega) (by omega)
  · rw [Finset.card_range, nsmul_eq_mul, Int.toNat_of_nonneg h0]

theorem storeFx_range (aw : Nat) (fo x : Int) : InRange 16 (rnnStoreFx aw fo x) := by
  have h := wrap_inRange (w := 16) (satFx aw x (aw - 16))
  obtain ⟨a, b⟩ := h
  unfold rnnStoreFx castFx0
  simp only [lo, hi] at a b
  simp only [reluLimits, applyLimits, show wrap 16 (lo 16) = -2 ^ 15 by decide, show wrap 16 (hi 16) = 2 ^ 15 - 1 by decide]
  constructor <;> simp only [lo, hi] <;> split <;> split <;> omega

/-- `clamp` to fewer bits makes an earlier one to more bits superfluous. -/
theorem clamp_sat {v w : Nat} (h1 : 1 ≤ v) (h : v ≤ w) (x : Int) : clamp v (clamp w x) = clamp v x := by
  have e1 : lo w ≤ lo v ∧ hi v ≤ hi w := by
    have : (2 : Int) ^ (v - 1) ≤ 2 ^ (w - 1) := pow_le_pow_right₀ (by decide) (by omega)
    simp only [lo, hi]; omega
  have e2 := lo_neg v
  have e3 := hi_nonneg v
  unfold clamp
  split <;> (try split) <;> (try split) <;> (try split) <;> omega

/-- The two conditions on fractional bits that the requantization needs. -/
structure CellFx.Shifts (f : CellFx) (ir : Int) : Prop where
  bias : f.fb ≤ f.fi + f.fwi
  req : ir ≤ f.fi + f.fwi
  h : 0 ≤ f.fh + f.fwo - ir
  o : 0 ≤ f.fo + f.fwo - ir

theorem biasFx64_abs (m : Rnd) {s b : Int} (h0 : 0 ≤ s) (h1 : s ≤ 16) (hb : InRange 16 b) : biasFx m 64 s b 0 = b * 2 ^ s.toNat ∧ |b * 2 ^ s.toNat| ≤ 2 ^ 31 := by
  refine ⟨?_, ?_⟩
  · rw [(biasFx64 m _ h0 h1 hb (by decide)).1, Int.zero_add]
  · have hp : (2 : Int) ^ s.toNat ≤ 2 ^ 16 := pow_le_pow_right₀ (by decide) (by omega)
    obtain ⟨l, u⟩ := hb
    simp only [lo, hi] at l u
    rw [abs_mul, abs_of_pos (two_pow_pos _)]
    exact (mul_le_mul (show _ ≤ (2 ^ 15 : Int) by rw [abs_le]; omega) hp (two_pow_pos _).le (by decide)).trans (by decide)

theorem two_le_gates {G : Nat} (hG : 2 ≤ G) {n k : Int} (hn : 1 ≤ n) (hk : 1 ≤ k) : 2 * k ≤ G * k * n := by
  have hG : (2 : Int) ≤ G := by exact_mod_cast hG
  have h1 : k * 1 ≤ k * n := mul_le_mul_of_nonneg_left hn (by omega)
  have h2 : 2 * (k * n) ≤ G * (k * n) := mul_le_mul_of_nonneg_right hG (by omega)
  have e : (G : Int) * k * n = G * (k * n) := by ring
  omega

/-- 16-bit weights and bias: no accumulator overflows. -/
theorem CellFx.safe64 (m : Rnd) {f : CellFx} {a : CellArgs} {G : Nat} {ir : Int} {cell : List Tensor} (hsh : a.Shapes G cell) (hG : 2 ≤ G) (hf : f.Shifts ir)
    (hbs : f.fi + f.fwi - f.fb ≤ 16) (hwi : a.twi.Holds a.wi 16) (hwo : a.two.Holds a.wo 16) (hb : a.tb.Holds a.bias 16) :
    (f.dense m 64 ir).Safe a G 16 16 (2 ^ 30) := by
  have e : hi 64 = 2 ^ 63 - 1 := by decide
  have n1 := hsh.n1
  have k1 := hsh.k1
  have hw1 := hsh.wiN
  have hw2 := hsh.woN
  have hk := two_le_gates hG n1 k1
  have hn := two_le_gates hG n1 n1
  have h0 := hf.bias
  refine ⟨hwi, hwo, fun _ => rfl, fun _ _ => rfl, fun x y hx hy => (abs_mul_le (by omega) (by omega) hx hy).trans (by decide), fun _ _ x y hx hy => ?_, ?_, ?_, ?_⟩
  · show |(x - 0) * y| ≤ _
    rw [Int.sub_zero]
    exact (abs_mul_le (by omega) (by omega) hx hy).trans (by decide)
  · intro g o ho
    obtain ⟨e1, e2⟩ := biasFx64_abs m (s := f.fi + f.fwi - f.fb) (by omega) hbs (hb _ ho)
    show |biasFx m 64 (f.fi + f.fwi - f.fb) (a.bias.get (a.tb.addr [g, o])) 0| + _ ≤ hi 64
    rw [e1, e]; omega
  · show _ ≤ hi 64
    rw [e]; omega
  · exact storeFx_range _ _

/-- 16-bit weights and bias: the value of a gate. -/
theorem CellFx.val64 (m : Rnd) {f : CellFx} {a : CellArgs} {G : Nat} {ir : Int} {cell : List Tensor} (hsh : a.Shapes G cell) (hG : 2 ≤ G) (hf : f.Shifts ir)
    (hbs : f.fi + f.fwi - f.fb ≤ 16) (h39 : f.fi + f.fwi - ir ≤ 39 ∧ f.fh + f.fwo - ir ≤ 39 ∧ f.fo + f.fwo - ir ≤ 39)
    (hwi : a.twi.Holds a.wi 16) (hwo : a.two.Holds a.wo 16) (hb : a.tb.Holds a.bias 16)
    (first : Bool) {X H : Int → Int} (rx : RowIn 16 a.k X) (rh : RowIn 16 a.n H) {g : Nat} (hg : g < G) {o : Int} (h0 : 0 ≤ o) (h1 : o < a.n) :
    GateFx m f ir (if first then f.fh else f.fo) a.k a.n a.w X H g o ((f.dense m 64 ir).val a first g X H o) := by
  have n1 := hsh.n1
  have k1 := hsh.k1
  have hw1 := hsh.wiN
  have hw2 := hsh.woN
  have hk := two_le_gates hG n1 k1
  have hn := two_le_gates hG n1 n1
  have hfb := hf.bias
  have hfi := hf.req
  have hfh := hf.h
  have hfo := hf.o
  obtain ⟨s0, s1, ei⟩ := hsh.wi
  obtain ⟨t0, t1, eo⟩ := hsh.wo
  obtain ⟨u0, eb⟩ := hsh.tb
  have inI : ∀ i, 0 ≤ i → i < a.k → InShape a.twi.shape [(g : Int), i, o] := fun i g0 g1 => by
    simp only [Tensor.shape, ei, List.map_cons, List.map_nil]
    exact ⟨⟨by omega, by omega⟩, ⟨g0, g1⟩, ⟨h0, h1⟩, trivial⟩
  have inO : ∀ i, 0 ≤ i → i < a.n → InShape a.two.shape [(g : Int), i, o] := fun i g0 g1 => by
    simp only [Tensor.shape, eo, List.map_cons, List.map_nil]
    exact ⟨⟨by omega, by omega⟩, ⟨g0, g1⟩, ⟨h0, h1⟩, trivial⟩
  have inB : InShape a.tb.shape [(g : Int), o] := by
    simp only [Tensor.shape, eb, List.map_cons, List.map_nil]
    exact ⟨⟨by omega, by omega⟩, ⟨h0, h1⟩, trivial⟩
  have d1 : |dotSum a.k X fun i => a.w.wi g i o| ≤ a.k * 2 ^ 30 := abs_dotSum_le (by omega) fun i g0 g1 =>
    (abs_mul_le (by omega) (by omega) (rx i g0 g1) (hwi _ (inI i g0 g1))).trans (by decide)
  have d2 : |dotSum a.n H fun i => a.w.wo g i o| ≤ a.n * 2 ^ 30 := abs_dotSum_le (by omega) fun i g0 g1 =>
    (abs_mul_le (by omega) (by omega) (rh i g0 g1) (hwo _ (inO i g0 g1))).trans (by decide)
  obtain ⟨b1, b2⟩ := biasFx64_abs m (s := f.fi + f.fwi - f.fb) (by omega) hbs (hb _ inB)
  set S0 := dotSum a.k X fun i => a.w.wi g i o with hS0
  set S1 := dotSum a.n H fun i => a.w.wo g i o with hS1
  set b := a.bias.get (a.tb.addr [(g : Int), o]) * 2 ^ (f.fi + f.fwi - f.fb).toNat with hbb
  have a1 : |S0 + b| ≤ 2 ^ 61 := (abs_add_le _ _).trans (by omega)
  obtain ⟨q0, q1⟩ := rnnReqFx64 m (s := f.fi + f.fwi - ir) (acc := S0 + b) (by omega) h39.1 a1
  obtain ⟨q2, q3⟩ := rnnReqFx64 m (s := (if first then f.fh else f.fo) + f.fwo - ir) (acc := S1) (by split <;> omega) (by split <;> omega) (d2.trans (by omega))
  refine ⟨_, _, q0, q2, ?_⟩
  have ev : (f.dense m 64 ir).val a first g X H o = rnnStoreFx 64 ir (addFx 64 (addFx 64 0 (rnnReqFx m 64 (f.fi + f.fwi - ir)
      (biasFx m 64 (f.fi + f.fwi - f.fb) (a.bias.get (a.tb.addr [(g : Int), o])) 0 + S0)))
      (rnnReqFx m 64 ((if first then f.fh else f.fo) + f.fwo - ir) S1)) := by
    simp only [CellDense.val, CellFx.dense, Int.sub_zero, if_true, Nat.one_ne_zero, if_false, hS0, hS1, CellArgs.w]
  rw [ev, b1, Int.add_comm b]
  generalize rnnReqFx m 64 (f.fi + f.fwi - ir) (S0 + b) = r0 at *
  generalize rnnReqFx m 64 ((if first then f.fh else f.fo) + f.fwo - ir) S1 = r1 at *
  have r0b := abs_le.1 (q1.trans a1)
  have r1b := abs_le.1 (q3.trans (d2.trans (show a.n * 2 ^ 30 ≤ 2 ^ 61 by omega)))
  have hr : ∀ x : Int, -2 ^ 62 ≤ x → x ≤ 2 ^ 62 → InRange 64 x := fun x g0 g1 => by constructor <;> simp only [lo, hi] <;> omega
  rw [addFx_eq (by decide) (hr r0 (by omega) (by omega)), Int.zero_add, clamp_of_inRange (hr r0 (by omega) (by omega)),
    addFx_eq (hr r0 (by omega) (by omega)) (hr r1 (by omega) (by omega)), clamp_of_inRange (hr (r0 + r1) (by omega) (by omega)),
    rnnStoreFx_eq (by omega) _ (hr (r0 + r1) (by omega) (by omega))]

/-- 8-bit weights and bias: the products and the bias of an accumulator fit 32 bits; 31 bits in builds that round half up. -/
structure CellFx.Fits (m : Rnd) (f : CellFx) (a : CellArgs) : Prop where
  input : ∀ g o, InShape a.tb.shape [g, o] → |a.bias.get (a.tb.addr [g, o])| * 2 ^ (f.fi + f.fwi - f.fb).toNat + a.k * 2 ^ 22 < if m = .up then 2 ^ 30 else 2 ^ 31
  recur : a.n * 2 ^ 22 < if m = .up then 2 ^ 30 else 2 ^ 31

theorem CellFx.Fits.lt {m : Rnd} {f : CellFx} {a : CellArgs} (h : f.Fits m a) :
    (∀ g o, InShape a.tb.shape [g, o] → |a.bias.get (a.tb.addr [g, o])| * 2 ^ (f.fi + f.fwi - f.fb).toNat + a.k * 2 ^ 22 < 2 ^ 31) ∧ a.n * 2 ^ 22 < 2 ^ 31 := by
  refine ⟨fun g o ho => ?_, ?_⟩
  · have := h.input g o ho
    split at this <;> omega
  · have := h.recur
    split at this <;> omega

theorem biasFx32_exact (m : Rnd) {s b : Int} (h0 : 0 ≤ s) (hb : InRange 8 b) (h : |b| * 2 ^ s.toNat < 2 ^ 31) : biasFx m 32 s b 0 = b * 2 ^ s.toNat := by
  have h3 : |b * 2 ^ s.toNat| < 2 ^ 31 := by rw [abs_mul, abs_of_pos (two_pow_pos _)]; exact h
  have h3 := abs_lt.1 h3
  have hr : InRange 32 (b * 2 ^ s.toNat) := by constructor <;> simp only [lo, hi] <;> omega
  rw [biasFx32 m _ h0 hb (by decide), Int.zero_add, clamp_of_inRange hr, clamp_of_inRange hr]

/-- 8-bit weights and bias: no accumulator overflows. -/
theorem CellFx.safe32 (m : Rnd) {f : CellFx} {a : CellArgs} {G : Nat} {ir : Int} {cell : List Tensor} (hsh : a.Shapes G cell) (hf : f.Shifts ir)
    (hfit : f.Fits m a) (hwi : a.twi.Holds a.wi 8) (hwo : a.two.Holds a.wo 8) (hb : a.tb.Holds a.bias 8) :
    (f.dense m 32 ir).Safe a G 16 8 (2 ^ 22) := by
  have e : hi 32 = 2 ^ 31 - 1 := by decide
  have n1 := hsh.n1
  have k1 := hsh.k1
  have h0 := hf.bias
  obtain ⟨f1, f2⟩ := hfit.lt
  refine ⟨hwi, hwo, fun _ => rfl, fun _ _ => rfl, fun x y hx hy => (abs_mul_le (by omega) (by omega) hx hy).trans (by decide), fun _ _ x y hx hy => ?_, ?_, ?_, ?_⟩
  · show |(x - 0) * y| ≤ _
    rw [Int.sub_zero]
    exact (abs_mul_le (by omega) (by omega) hx hy).trans (by decide)
  · intro g o ho
    have h1 := f1 g o ho
    show |biasFx m 32 (f.fi + f.fwi - f.fb) (a.bias.get (a.tb.addr [g, o])) 0| + _ ≤ hi 32
    rw [biasFx32_exact m (by omega) (hb _ ho) (by omega), e, abs_mul, abs_of_pos (two_pow_pos _)]; omega
  · show _ ≤ hi 32
    rw [e]; omega
  · exact storeFx_range _ _

/-- 8-bit weights and bias: the value of a gate. -/
theorem CellFx.val32 (m : Rnd) {f : CellFx} {a : CellArgs} {G : Nat} {ir : Int} {cell : List Tensor} (hsh : a.Shapes G cell) (hf : f.Shifts ir)
    (hfit : f.Fits m a) (hwi : a.twi.Holds a.wi 8) (hwo : a.two.Holds a.wo 8) (hb : a.tb.Holds a.bias 8)
    (first : Bool) {X H : Int → Int} (rx : RowIn 16 a.k X) (rh : RowIn 16 a.n H) {g : Nat} (hg : g < G) {o : Int} (h0 : 0 ≤ o) (h1 : o < a.n) :
    GateFx m f ir (if first then f.fh else f.fo) a.k a.n a.w X H g o ((f.dense m 32 ir).val a first g X H o) := by
  have n1 := hsh.n1
  have k1 := hsh.k1
  have hfb := hf.bias
  have hfi := hf.req
  have hfh := hf.h
  have hfo := hf.o
  obtain ⟨s0, s1, ei⟩ := hsh.wi
  obtain ⟨t0, t1, eo⟩ := hsh.wo
  obtain ⟨u0, eb⟩ := hsh.tb
  have inI : ∀ i, 0 ≤ i → i < a.k → InShape a.twi.shape [(g : Int), i, o] := fun i g0 g1 => by
    simp only [Tensor.shape, ei, List.map_cons, List.map_nil]
    exact ⟨⟨by omega, by omega⟩, ⟨g0, g1⟩, ⟨h0, h1⟩, trivial⟩
  have inO : ∀ i, 0 ≤ i → i < a.n → InShape a.two.shape [(g : Int), i, o] := fun i g0 g1 => by
    simp only [Tensor.shape, eo, List.map_cons, List.map_nil]
    exact ⟨⟨by omega, by omega⟩, ⟨g0, g1⟩, ⟨h0, h1⟩, trivial⟩
  have inB : InShape a.tb.shape [(g : Int), o] := by
    simp only [Tensor.shape, eb, List.map_cons, List.map_nil]
    exact ⟨⟨by omega, by omega⟩, ⟨h0, h1⟩, trivial⟩
  have d1 : |dotSum a.k X fun i => a.w.wi g i o| ≤ a.k * 2 ^ 22 := abs_dotSum_le (by omega) fun i g0 g1 =>
    (abs_mul_le (by omega) (by omega) (rx i g0 g1) (hwi _ (inI i g0 g1))).trans (by decide)
  have d2 : |dotSum a.n H fun i => a.w.wo g i o| ≤ a.n * 2 ^ 22 := abs_dotSum_le (by omega) fun i g0 g1 =>
    (abs_mul_le (by omega) (by omega) (rh i g0 g1) (hwo _ (inO i g0 g1))).trans (by decide)
  have f1 := hfit.input _ _ inB
  have f2 := hfit.recur
  obtain ⟨l1, l2⟩ := hfit.lt
  have l1 := l1 _ _ inB
  have bnn : 0 ≤ |a.bias.get (a.tb.addr [(g : Int), o])| * 2 ^ (f.fi + f.fwi - f.fb).toNat := by positivity
  have b1 := biasFx32_exact m (s := f.fi + f.fwi - f.fb) (by omega) (hb _ inB) (by omega)
  have b2 : |a.bias.get (a.tb.addr [(g : Int), o]) * 2 ^ (f.fi + f.fwi - f.fb).toNat| = |a.bias.get (a.tb.addr [(g : Int), o])| * 2 ^ (f.fi + f.fwi - f.fb).toNat := by
    rw [abs_mul, abs_of_pos (two_pow_pos _)]
  rw [← b2] at f1 l1 bnn
  set S0 := dotSum a.k X fun i => a.w.wi g i o with hS0
  set S1 := dotSum a.n H fun i => a.w.wo g i o with hS1
  set b := a.bias.get (a.tb.addr [(g : Int), o]) * 2 ^ (f.fi + f.fwi - f.fb).toNat with hbb
  have a1 : |S0 + b| ≤ |b| + a.k * 2 ^ 22 := (abs_add_le _ _).trans (by omega)
  have a0 := abs_le.1 a1
  have a2 := abs_le.1 d2
  obtain ⟨q0, q1⟩ := rnnReqFx32 m (s := f.fi + f.fwi - ir) (acc := S0 + b) (by omega) (by constructor <;> simp only [lo, hi] <;> omega)
    (fun h => by rw [if_pos h] at f1; omega)
  obtain ⟨q2, q3⟩ := rnnReqFx32 m (s := (if first then f.fh else f.fo) + f.fwo - ir) (acc := S1) (by split <;> omega)
    (by constructor <;> simp only [lo, hi] <;> omega) (fun h => by rw [if_pos h] at f2; omega)
  refine ⟨_, _, q0, q2, ?_⟩
  have ev : (f.dense m 32 ir).val a first g X H o = rnnStoreFx 32 ir (addFx 32 (addFx 32 0 (rnnReqFx m 32 (f.fi + f.fwi - ir)
      (biasFx m 32 (f.fi + f.fwi - f.fb) (a.bias.get (a.tb.addr [(g : Int), o])) 0 + S0)))
      (rnnReqFx m 32 ((if first then f.fh else f.fo) + f.fwo - ir) S1)) := by
    simp only [CellDense.val, CellFx.dense, Int.sub_zero, if_true, Nat.one_ne_zero, if_false, hS0, hS1, CellArgs.w]
  rw [ev, b1, Int.add_comm b]
  generalize rnnReqFx m 32 (f.fi + f.fwi - ir) (S0 + b) = r0 at *
  generalize rnnReqFx m 32 ((if first then f.fh else f.fo) + f.fwo - ir) S1 = r1 at *
  have r0b := abs_le.1 (q1.trans a1)
  have r1b := abs_le.1 (q3.trans d2)
  have hr0 : InRange 32 r0 := by constructor <;> simp only [lo, hi] <;> omega
  have hr1 : InRange 32 r1 := by constructor <;> simp only [lo, hi] <;> omega
  rw [addFx_eq (by decide) hr0, Int.zero_add, clamp_of_inRange hr0, addFx_eq hr0 hr1, rnnStoreFx_eq (by omega) _ (clamp_inRange _ _),
    clamp_sat (by omega) (by omega)]

end Mli
