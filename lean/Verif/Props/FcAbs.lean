import Verif.Props.Fc
import Verif.Props.ConvAbs

/-!
# C39: 8-bit weights with more than 511 inputs
-/

namespace Mli

open Spec

/-- The sum of the absolute values of `n` weights. -/
def Spec.absLine (n : Int) (W : Int → Int) : Int := ∑ i ∈ Finset.range n.toNat, |W i|

/-- What `innerProduct` computes for accepted tensors without zero points. -/
theorem innerProduct_allV {apart : Bool} {tin tw tb tout : Tensor} {src wts bias dst : Buf} {wi ww wb : Nat}
    (A : FcArgs tin tw tb tout src wts bias dst wi ww wb) (hchk : chkFc apart tin tw tb tout = some .ok)
    {n m : Int} (sw : tw.shape = [n, m])
    (q : ConvQ) (post : Int → Int → Int → Int) (hzw : q.zw = 0) (hzx : q.zx = 0) (B : Int)
    (hB : ∀ is, InShape tin.shape is → |src.get (tin.addr is)| ≤ B)
    (hfit : ∀ o, 0 ≤ o → o < m → B * absLine n (fun i => wts.get (tw.addr [i, o])) ≤ hi q.aw) :
    ∃ dst' val X, tin.Flat src X ∧
      innerProduct q post src wts bias tin.base tw.base tb.base tout.base (countElemNum tin) (tw.shape.getD 1 0) (tw.strides.getD 0 0) dst
        = some dst' ∧ tout.Writes val dst dst' ∧
      ∀ o, InShape tout.shape [o] → InShape tb.shape [o] ∧ (0 ≤ o ∧ o < m) ∧
        |dotSum n X (fun i => wts.get (tw.addr [i, o]))| ≤ B * absLine n (fun i => wts.get (tw.addr [i, o])) ∧
        val [o] = post o (bias.get (tb.addr [o])) (dotSum n X (fun i => wts.get (tw.addr [i, o]))) := by
  obtain ⟨wi', wo, bn, on, e1, e2, e3, hn, hbn, hon, hct, s1, s2, s3, -⟩ := chkFc_ok hchk
  simp only [Tensor.shape, e1, List.map_cons, List.map_nil, List.cons.injEq, and_true] at sw
  obtain ⟨rfl, rfl⟩ := sw
  obtain ⟨c1, c2, c3⟩ := countElemNum_eq A.vi
  have hstr : tin.strides = cstr tin.shape := (contigScan_cstr tin.dims hct).1
  have hpos : ∀ k ∈ tin.shape, 1 ≤ k := by
    intro k hk
    obtain ⟨d, hd, rfl⟩ := List.mem_map.1 hk
    exact A.vi.shape_pos d hd
  -- each element of the input
  have hX : ∀ k : Nat, (k : Int) < wi'.shape → ∃ is, InShape tin.shape is ∧ tin.addr is = tin.base + k := by
    intro k hk
    obtain ⟨is, h1, h2⟩ := contig_offset_onto tin.shape hpos k (by omega) (by omega)
    exact ⟨is, h1, by unfold Tensor.addr; rw [hstr, h2]⟩
  have hW : ∀ k o : Nat, (k : Int) < wi'.shape → (o : Int) < wo.shape → InShape tw.shape [(k : Int), (o : Int)] ∧
      tw.addr [(k : Int), (o : Int)] = tw.base + o + wi'.stride * k := by
    intro k o hk ho
    refine ⟨?_, ?_⟩
    · simp only [Tensor.shape, e1, List.map_cons, List.map_nil, InShape]
      exact ⟨⟨by omega, hk⟩, ⟨by omega, ho⟩, trivial⟩
    · simp only [Tensor.addr, Tensor.strides, e1, List.map_cons, List.map_nil, offset, s1]
      ring
  have hn0 : (wi'.shape.toNat : Int) = wi'.shape := by omega
  have hrx : ∀ k : Nat, k < wi'.shape.toNat → src.rd (tin.base + 1 * k) = some (src.get (tin.base + k)) := by
    intro k hk
    obtain ⟨is, h1, h2⟩ := hX k (by omega)
    have := A.vi.rd h1 rfl
    rw [h2] at this
    rw [Int.one_mul, this]
  have hrw : ∀ o : Nat, (o : Int) < wo.shape → ∀ k : Nat, k < wi'.shape.toNat →
      wts.rd (tw.base + o + wi'.stride * k) = some (wts.get (tw.addr [(k : Int), (o : Int)])) := by
    intro o ho k hk
    obtain ⟨h1, h2⟩ := hW k o (by omega) ho
    rw [← h2]
    exact A.vw.rd h1 rfl
  have hb : ∀ o : Nat, (o : Int) < wo.shape → ∀ k : Nat, k < wi'.shape.toNat →
      |src.get (tin.base + k) * wts.get (tw.addr [(k : Int), (o : Int)])| ≤ B * |wts.get (tw.addr [(k : Int), (o : Int)])| := by
    intro o ho k hk
    obtain ⟨is, h1, h2⟩ := hX k (by omega)
    have := hB is h1
    rw [h2] at this
    rw [abs_mul]
    exact mul_le_mul_of_nonneg_right this (abs_nonneg _)
  have hsum : ∀ o : Nat, (o : Int) < wo.shape →
      |dotSum wi'.shape (fun i => src.get (tin.base + i)) (fun i => wts.get (tw.addr [i, (o : Int)]))| ≤
        B * absLine wi'.shape (fun i => wts.get (tw.addr [i, (o : Int)])) := by
    intro o ho
    unfold dotSum absLine
    rw [Finset.mul_sum]
    exact (Finset.abs_sum_le_sum_abs _ _).trans (Finset.sum_le_sum fun k hk => hb o ho k (Finset.mem_range.1 hk))
  have run : ∀ o : Nat, (o : Int) < wo.shape →
      (dotprod1D q.aw src wts tin.base (tw.base + o) 0 wi'.shape 1 wi'.stride).bind (fun acc =>
        wAdd3D q wts (tw.base + o) acc wi'.shape 1 1 wi'.stride 1 1) =
      some (dotSum wi'.shape (fun i => src.get (tin.base + i)) (fun i => wts.get (tw.addr [i, (o : Int)]))) := by
    intro o ho
    have a1 : Adds q.aw (fun a => dotprod1D q.aw src wts tin.base (tw.base + o) a wi'.shape 1 wi'.stride)
        (∑ k ∈ Finset.range wi'.shape.toNat, src.get (tin.base + k) * wts.get (tw.addr [(k : Int), (o : Int)]))
        (∑ k ∈ Finset.range wi'.shape.toNat, B * |wts.get (tw.addr [(k : Int), (o : Int)])|) := by
      simp only [dotprod1D_eq]
      exact Adds.forRangeV _ (fun (k : Nat) a => macStep q.aw src wts (tin.base + 1 * k) (tw.base + o + wi'.stride * k) a) _ _
        fun k hk => macStep_adds (hrx k hk) (hrw o ho k hk) (hb o ho k hk)
    have hf := hfit o (by omega) ho
    unfold absLine at hf
    rw [Finset.mul_sum] at hf
    beta_reduce at hf
    have h0 := a1.2 0 (by have := lo_eq q.aw; have := hi_eq q.aw; omega) (by omega)
    simp only [Int.zero_add] at h0
    rw [h0, Option.bind_some]
    unfold wAdd3D
    rw [if_neg (by simp [hzx])]
    rfl
  obtain ⟨dst', h1, h2⟩ := loop1_writes tout dst A.vo e3
    (fun is => match is with
      | [o] => post o (bias.get (tb.addr [o])) (dotSum wi'.shape (fun i => src.get (tin.base + i)) (fun i => wts.get (tw.addr [i, o])))
      | _ => 0)
    (fun (o : Nat) d =>
      (dotprod1D q.aw src wts tin.base (tw.base + o) 0 wi'.shape 1 wi'.stride).bind fun acc =>
      (wAdd3D q wts (tw.base + o) acc wi'.shape 1 1 wi'.stride 1 1).bind fun acc =>
      (bias.rd (tb.base + o)).bind fun b =>
      d.wr (tout.base + o) (post o b (addFx q.aw acc 0))) (by
      intro o ho d' _
      have ho' : (o : Int) < wo.shape := by omega
      have r := run o ho'
      have hbr : bias.rd (tb.base + o) = some (bias.get (tb.addr [(o : Int)])) := by
        have hs : InShape tb.shape [(o : Int)] := by
          simp only [Tensor.shape, e2, List.map_cons, List.map_nil, InShape]
          exact ⟨by omega, trivial⟩
        rw [← A.vb.rd hs rfl]
        congr 1
        simp only [Tensor.addr, Tensor.strides, e2, List.map_cons, List.map_nil, offset, s2]
        ring
      have hS := abs_le.1 ((hsum o ho').trans (hfit o (by omega) ho'))
      have hl := lo_eq q.aw
      have hh := hi_eq q.aw
      have hrS : InRange q.aw (dotSum wi'.shape (fun i => src.get (tin.base + i)) (fun i => wts.get (tw.addr [i, (o : Int)]))) :=
        ⟨by omega, hS.2⟩
      have ha : addFx q.aw (dotSum wi'.shape (fun i => src.get (tin.base + i)) (fun i => wts.get (tw.addr [i, (o : Int)]))) 0 =
          dotSum wi'.shape (fun i => src.get (tin.base + i)) (fun i => wts.get (tw.addr [i, (o : Int)])) := by
        rw [addFx_eq hrS ⟨(lo_neg q.aw).le, hi_nonneg q.aw⟩, Int.add_zero, clamp_of_inRange hrS]
      have ea : tout.addr [(o : Int)] = tout.base + o := by
        simp only [Tensor.addr, Tensor.strides, e3, List.map_cons, List.map_nil, offset, s3]
        ring
      rw [← Option.bind_assoc, r, Option.bind_some, hbr, Option.bind_some, ha, ea])
  refine ⟨dst', _, fun i => src.get (tin.base + i), contig_flat hct src, ?_, h2, ?_⟩
  · unfold innerProduct
    simp only [inAdd2D, hzw, ne_eq, not_true_eq_false, if_false, Option.bind_some, zpAdd, false_or]
    have hz : (if ¬ q.zx = 0 then forRange (countElemNum tin).toNat (fun _ a => macFx q.aw a q.zx 0) 0 else some 0) = some 0 := by
      have := (zpAdd_adds (q := q) (countElemNum tin)).2 0 (by rw [hzw]; simpa using (lo_neg q.aw).le) (by rw [hzw]; simpa using hi_nonneg q.aw)
      simpa [zpAdd, hzw] using this
    rw [hz, Option.bind_some]
    simp only [Tensor.shape, Tensor.strides, e1, List.map_cons, List.map_nil, List.getD_cons_succ, List.getD_cons_zero, hn, ← hon]
    exact h1
  · intro o ho
    simp only [Tensor.shape, e3, List.map_cons, List.map_nil, InShape] at ho
    obtain ⟨⟨o0, o1⟩, -⟩ := ho
    obtain ⟨o, rfl⟩ := Int.eq_ofNat_of_zero_le o0
    refine ⟨?_, ⟨by omega, by omega⟩, hsum o (by omega), rfl⟩
    simp only [Tensor.shape, e2, List.map_cons, List.map_nil, InShape]
    exact ⟨by omega, trivial⟩

/-- **C39**, 16-bit input with 8-bit weights and bias, accumulated in 32 bits, for any number of inputs: it is enough that the absolute values of the weights
of each output add up to at most 65535.  With 65536 the sum can overflow (`c39_fx16_fx8_overflow_violated`).  Partial: with rounding up the output shift must
not be between 17 and 31 (`c05_cast_up_violated`). -/
theorem c39_fx16_fx8_weights_partial (m : Rnd) (apart : Bool) (f : FxQ) (src wts bias dst : Buf) (tin tw tb tout : Tensor) (n k : Int)
    (A : FcArgs tin tw tb tout src wts bias dst 16 8 8) (hchk : chkFcFx apart f tin tw tb tout = some .ok) (sw : tw.shape = [n, k])
    (hn : ∀ o, 0 ≤ o → o < k → absLine n (fun i => wts.get (tw.addr [i, o])) ≤ 65535)
    (h1 : f.relu = .one → f.fo < 30) (hup : m = .up → f.fi + f.fw - f.fo ≤ 16 ∨ 32 ≤ f.fi + f.fw - f.fo) :
    ∃ dst' val X, tin.Flat src X ∧ krnFcFx m 16 32 apart f src wts bias tin tw tb tout dst = some (.ok, dst') ∧
      tout.Writes val dst dst' ∧ ∀ o, InShape tout.shape [o] →
        ∃ r, Scaled m (clamp 32 (dotSum n X (fun i => wts.get (tw.addr [i, o])) +
            clamp 32 (bias.get (tb.addr [o]) * 2 ^ (f.fi + f.fw - f.fb).toNat))) (f.fi + f.fw - f.fo) r ∧
          NearestIn (f.relu.Admissible 16 0 1 f.fo) (clamp 16 r) (val [o]) := by
  obtain ⟨f1, f2, hck⟩ := chkFcFx_ok hchk
  have hXr : ∀ is, InShape tin.shape is → |src.get (tin.addr is)| ≤ 2 ^ 15 := by
    intro is his
    obtain ⟨a, b⟩ := A.hi is his
    simp only [lo, hi] at a b
    rw [abs_le]; omega
  have hfit : ∀ o, 0 ≤ o → o < k → 2 ^ 15 * absLine n (fun i => wts.get (tw.addr [i, o])) ≤ 2 ^ 31 - 1 := by
    intro o o0 o1
    have := hn o o0 o1
    omega
  obtain ⟨dst', val, X, hX, r1, r2, r3⟩ := innerProduct_allV A hck sw { aw := 32 }
    (fun _ b acc => castLimFxTo 16 m 32 f (biasFx m 32 (f.fi + f.fw - f.fb) b acc)) rfl rfl (2 ^ 15) hXr
    (fun o o0 o1 => (hfit o o0 o1).trans (by decide))
  refine ⟨dst', val, X, hX, ?_, r2, fun o ho => ?_⟩
  · unfold krnFcFx
    simp only [hchk, Option.bind_eq_bind, Option.bind_some, ne_eq, not_true_eq_false, if_false, r1, Option.pure_def]
  · obtain ⟨hk, ⟨o0, o1⟩, hS, e0⟩ := r3 o ho
    have hS := abs_le.1 (hS.trans (hfit o o0 o1))
    rw [e0, biasFx32 m (f.fi + f.fw - f.fb) (by omega) (A.hb [o] hk) ⟨by simp only [lo]; omega, by simp only [hi]; omega⟩]
    exact castLimFxTo_spec 16 (by omega) m 32 (by omega) f (clamp_inRange _ _) h1 (fun hm => (hup hm).elim (fun h => Or.inl (by omega)) (fun h => Or.inr (Or.inl (by omega))))

/-! A call with 600 inputs: 600 weights of -109 (sum of absolute values 65400) and inputs of -32768. -/

def exFcIn600 : Tensor := { dims := [⟨600, 1⟩], cap := 1200, es := 2 }
def exFcWt600 : Tensor := { dims := [⟨600, 1⟩, ⟨1, 1⟩], cap := 600, es := 1 }
def exFcOut1 : Tensor := { dims := [⟨1, 1⟩], cap := 2, es := 2 }

theorem exFcArgs600 : FcArgs exFcIn600 exFcWt600 exBias1 exFcOut1 exSrc600 exWts600 (Buf.ofList [5]) (Buf.ofList [99]) 16 8 8 :=
  ⟨⟨by decide, by decide, by decide, by decide⟩, ⟨by decide, by decide, by decide, by decide⟩, ⟨by decide, by decide, by decide, by decide⟩,
    ⟨by decide, by decide, by decide, by decide⟩, fun _ _ => show InRange 16 (-32768) by decide, fun _ _ => show InRange 8 (-109) by decide,
    holds_ofList (by decide) _⟩

/-- Hypotheses of `c39_fx16_fx8_weights_partial` for more inputs than `c39_fx16_fx8_partial` admits. -/
example :
    let f : FxQ := { fi := 15, fw := 7, fb := 7, fo := 6, relu := .none }
    chkFcFx true f exFcIn600 exFcWt600 exBias1 exFcOut1 = some .ok ∧ exFcWt600.shape = [600, 1] ∧
    (∀ o, 0 ≤ o → o < 1 → absLine 600 (fun i => exWts600.get (exFcWt600.addr [i, o])) ≤ 65535) := by
  refine ⟨by decide +kernel, by decide, fun o _ _ => ?_⟩
  have e : (fun i => exWts600.get (exFcWt600.addr [i, o])) = fun _ => -109 := rfl
  rw [e]
  simp [absLine]

end Mli
