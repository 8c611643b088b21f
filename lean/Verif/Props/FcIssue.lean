import Verif.Props.Fc

/-!
# Properties of the run-time fully connected kernel (C61)
-/

namespace Mli

open Spec

/-- A loop that stores each element of a tensor with one row. -/
theorem loopRow_writes (t : Tensor) (mem : Buf) (hv : t.Valid mem) {b n : Dim} (e : t.dims = [b, n]) (hb : b.shape = 1) (val : List Int → Int)
    (f : Nat → Buf → Option Buf)
    (hf : ∀ k : Nat, (k : Int) < n.shape → ∀ d' : Buf, d'.size = mem.size → f k d' = d'.wr (t.addr [0, (k : Int)]) (val [0, (k : Int)])) :
    ∃ mem', forRange n.shape.toNat f mem = some mem' ∧ t.Writes val mem mem' := by
  have so : t.shape = [1, n.shape] := by simp [Tensor.shape, e, hb]
  have inS : ∀ k : Nat, (k : Int) < n.shape → InShape t.shape [0, (k : Int)] := fun k hk => by
    rw [so]; exact ⟨⟨by omega, by omega⟩, ⟨by omega, hk⟩, trivial⟩
  have hc : Coherent (fun k : Nat => t.addr [0, (k : Int)]) (fun k : Nat => val [0, (k : Int)]) (fun k : Nat => (k : Int) < n.shape) := by
    intro p q hp hq e
    have := c09_accepted_no_alias t hv.accepted _ _ (inS p hp) (inS q hq) (by
      have : t.addr _ = t.addr _ := e
      unfold Tensor.addr at this; omega)
    show val _ = val _
    rw [this]
  obtain ⟨d', h1, h2⟩ := forRange_emits hc n.shape.toNat f (fun k p => p = k) mem (by rintro i p hi rfl; omega) (by
    intro k d1 hk hd1
    rw [hf k (by omega) d1 hd1]
    have := hv.inBounds (inS k (by omega))
    exact Emits.one (fun k : Nat => t.addr [0, (k : Int)]) (fun k : Nat => val [0, (k : Int)]) k d1 (by
      show 0 ≤ t.addr _ ∧ t.addr _ < _
      unfold Tensor.addr; omega))
  refine ⟨d', h1, h2.size, ?_, ?_⟩
  · intro is his
    rw [so] at his
    match is, his with
    | [j, k], ⟨⟨j0, j1⟩, ⟨k0, k1⟩, _⟩ =>
      obtain rfl : j = 0 := by omega
      obtain ⟨k, rfl⟩ := Int.eq_ofNat_of_zero_le k0
      exact h2.hit k ⟨k, by omega, rfl⟩
  · intro a ha
    apply h2.frame
    rintro p ⟨k, hk, e⟩
    exact ha _ (inS p (by omega))

/-- Tensors of a run-time fully connected layer with `n` inputs and `m` outputs: one batch, channels adjacent. -/
structure FcRun (tin tw tout : Tensor) (src wts dst : Buf) (n m : Int) : Prop where
  vi : tin.Valid src
  vw : tw.Valid wts
  vo : tout.Valid dst
  hi : tin.Holds src 8
  hw : tw.Holds wts 8
  si : tin.shape = [1, n] ∧ tin.strides.getD 1 0 = 1
  sw : tw.shape = [n, m] ∧ tw.strides.getD 1 0 = 1
  so : tout.shape = [1, m] ∧ tout.strides.getD 1 0 = 1

theorem dims2 {t : Tensor} {n m : Int} (h : t.shape = [n, m]) (h1 : t.strides.getD 1 0 = 1) :
    ∃ a b : Dim, t.dims = [a, b] ∧ a.shape = n ∧ b.shape = m ∧ b.stride = 1 := by
  unfold Tensor.shape at h
  unfold Tensor.strides at h1
  match e : t.dims, h, h1 with
  | [a, b], h, h1 =>
    simp only [List.map_cons, List.map_nil, List.cons.injEq, and_true] at h
    exact ⟨a, b, rfl, h.1, h.2, h1⟩

/-- What the kernel computes for a weights zero point `z`. -/
theorem innerNoBias_all {tin tw tout : Tensor} {src wts dst : Buf} {n m : Int} (A : FcRun tin tw tout src wts dst n m) (z : Int)
    (hz : |z| < 2 ^ 15) (hn : n * (2 ^ 7 * 2 ^ 7 + 2 ^ 7 * |z|) ≤ 2 ^ 31 - 1) :
    ∃ dst' val, innerProductNoBias { aw := 32, zw := z } src wts tin.base tw.base tout.base (countElemNum tin) (tw.shape.getD 1 0)
        (tw.strides.getD 0 0) dst = some dst' ∧ tout.Writes val dst dst' ∧
      ∀ o, 0 ≤ o → o < m → val [0, o] = dotSum n (fun i => src.get (tin.addr [0, i])) (fun i => wts.get (tw.addr [i, o]) - z) := by
  obtain ⟨i0, i1, ei, ei0, ei1, eis⟩ := dims2 A.si.1 A.si.2
  obtain ⟨w0, w1, ew, ew0, ew1, ews⟩ := dims2 A.sw.1 A.sw.2
  obtain ⟨o0, o1, eo, eo0, eo1, eos⟩ := dims2 A.so.1 A.so.2
  obtain ⟨c1, c2, c3⟩ := countElemNum_eq A.vi
  have hcn : countElemNum tin = n := by rw [c1, A.si.1]; simp [prod]
  have hn1 : 1 ≤ n := by rw [← hcn, c1]; exact c2
  have hnn : (n.toNat : Int) = n := by omega
  have inI : ∀ k : Nat, k < n.toNat → InShape tin.shape [0, (k : Int)] ∧ tin.addr [0, (k : Int)] = tin.base + k := by
    intro k hk
    refine ⟨?_, ?_⟩
    · rw [A.si.1]; exact ⟨⟨by omega, by omega⟩, ⟨by omega, by omega⟩, trivial⟩
    · simp only [Tensor.addr, Tensor.strides, ei, List.map_cons, List.map_nil, offset, eis]; ring
  have inW : ∀ k o : Nat, k < n.toNat → (o : Int) < m → InShape tw.shape [(k : Int), (o : Int)] ∧
      tw.addr [(k : Int), (o : Int)] = tw.base + o + w0.stride * k := by
    intro k o hk ho
    refine ⟨?_, ?_⟩
    · rw [A.sw.1]; exact ⟨⟨by omega, by omega⟩, ⟨by omega, by omega⟩, trivial⟩
    · simp only [Tensor.addr, Tensor.strides, ew, List.map_cons, List.map_nil, offset, ews]; ring
  have hrx : ∀ k : Nat, k < n.toNat → src.rd (tin.base + 1 * k) = some (src.get (tin.addr [0, (k : Int)])) := by
    intro k hk
    obtain ⟨h1, h2⟩ := inI k hk
    rw [← A.vi.rd h1 rfl, h2, Int.one_mul]
  have hrw : ∀ o : Nat, (o : Int) < m → ∀ k : Nat, k < n.toNat →
      wts.rd (tw.base + o + w0.stride * k) = some (wts.get (tw.addr [(k : Int), (o : Int)])) := by
    intro o ho k hk
    obtain ⟨h1, h2⟩ := inW k o hk ho
    rw [← A.vw.rd h1 rfl, h2]
  have hax : ∀ k : Nat, k < n.toNat → |src.get (tin.addr [0, (k : Int)])| ≤ 2 ^ 7 := by
    intro k hk
    have := A.hi _ (inI k hk).1
    simp only [InRange, lo, hi] at this
    rw [abs_le]; norm_num at this ⊢; omega
  have hB1 : ∀ o : Nat, (o : Int) < m → ∀ k : Nat, k < n.toNat →
      |src.get (tin.addr [0, (k : Int)]) * wts.get (tw.addr [(k : Int), (o : Int)])| ≤ 2 ^ 7 * 2 ^ 7 := by
    intro o ho k hk
    have h := abs_mul_le (a := 8) (b := 8) (by omega) (by omega) (A.hi _ (inI k hk).1) (A.hw _ (inW k o hk ho).1)
    exact h
  have hB2 : ∀ k : Nat, k < n.toNat → |-z * src.get (tin.addr [0, (k : Int)])| ≤ 2 ^ 7 * |z| := by
    intro k hk
    rw [abs_mul, abs_neg, mul_comm]
    exact mul_le_mul_of_nonneg_right (hax k hk) (abs_nonneg z)
  have hz0 := abs_nonneg z
  have hsplit : n * (2 ^ 7 * 2 ^ 7) + n * (2 ^ 7 * |z|) ≤ 2 ^ 31 - 1 := by rw [← mul_add]; exact hn
  have p1 : 0 ≤ n * (2 ^ 7 * 2 ^ 7) := by positivity
  have p2 : 0 ≤ n * (2 ^ 7 * |z|) := by positivity
  -- the input additive
  have hadd := inAdd2D_adds (q := { aw := 32, zw := z }) (src := src) (p := tin.base) (W := n) (H := 1) (cs := 1) (rs := 1)
    (fun _ k => src.get (tin.addr [0, (k : Int)])) (2 ^ 7 * |z|)
    (wrap_of_inRange (by omega) (by have := abs_lt.1 hz; simp only [InRange, lo, hi]; norm_num at this ⊢; omega))
    (by intro r k hr hk
        obtain rfl : r = 0 := by simp at hr; exact hr
        have := hrx k hk
        simpa using this)
    (fun r k hr hk => hB2 k hk) (by positivity)
  have e1 : (1 : Int).toNat = 1 := rfl
  simp only [e1, Finset.range_one, Finset.sum_singleton, Nat.cast_one, Int.one_mul, hnn] at hadd
  have hl : lo 32 = -2 ^ 31 := rfl
  have hh : hi 32 = 2 ^ 31 - 1 := rfl
  have hadd0 := hadd.2 0 (by rw [hl]; omega) (by rw [hh]; omega)
  simp only [Int.zero_add] at hadd0
  have hrun : ∀ o : Nat, (o : Int) < m →
      dotprod1D 32 src wts tin.base (tw.base + o) 0 n 1 w0.stride =
        some (∑ k ∈ Finset.range n.toNat, src.get (tin.addr [0, (k : Int)]) * wts.get (tw.addr [(k : Int), (o : Int)])) ∧
      |∑ k ∈ Finset.range n.toNat, src.get (tin.addr [0, (k : Int)]) * wts.get (tw.addr [(k : Int), (o : Int)])| ≤ n * (2 ^ 7 * 2 ^ 7) := by
    intro o ho
    have a1 := dotprod1D_adds (aw := 32) (src := src) (wts := wts) (p := tin.base) (q := tw.base + o) (n := n) (is := 1)
      (ks := w0.stride) _ _ _ hrx (hrw o ho) (hB1 o ho)
    rw [hnn] at a1
    have h0 := a1.2 0 (by rw [hl]; omega) (by rw [hh]; omega)
    simp only [Int.zero_add] at h0
    exact ⟨h0, a1.1⟩
  obtain ⟨dst', h1, h2⟩ := loopRow_writes tout dst A.vo eo eo0
    (fun is => match is with
      | [_, o] => dotSum n (fun i => src.get (tin.addr [0, i])) (fun i => wts.get (tw.addr [i, o]) - z)
      | _ => 0)
    (fun (o : Nat) d =>
      (dotprod1D 32 src wts tin.base (tw.base + o) 0 n 1 w0.stride).bind fun acc =>
      d.wr (tout.base + o) (addFx 32 acc (∑ k ∈ Finset.range n.toNat, -z * src.get (tin.addr [0, (k : Int)])))) (by
      intro o ho d' _
      obtain ⟨r1, r2⟩ := hrun o (by omega)
      have s1 := abs_le.1 r2
      have s2 := abs_le.1 hadd.1
      have ea : tout.addr [0, (o : Int)] = tout.base + o := by
        simp only [Tensor.addr, Tensor.strides, eo, List.map_cons, List.map_nil, offset, eos]; ring
      rw [r1, Option.bind_some, ea, addFx_eq ⟨by rw [hl]; omega, by rw [hh]; omega⟩ ⟨by rw [hl]; omega, by rw [hh]; omega⟩,
        clamp_of_inRange ⟨by rw [hl]; omega, by rw [hh]; omega⟩, ← Finset.sum_add_distrib]
      congr 1
      unfold dotSum
      apply Finset.sum_congr rfl; intro i _; ring)
  refine ⟨dst', _, ?_, h2, ?_⟩
  · unfold innerProductNoBias
    simp only [hcn]
    rw [hadd0, Option.bind_some]
    have g1 : tw.shape.getD 1 0 = m := by rw [A.sw.1]; rfl
    have g2 : tw.strides.getD 0 0 = w0.stride := by simp [Tensor.strides, ew]
    rw [g1, g2, ← eo1]
    exact h1
  · intro o h0 h1
    rfl

/-- C61.  The run-time fully connected kernel writes, for output `o`, the sum over the inputs of `x[i] * (w[i, o] - z)`, and nothing else,
for the zero point `z` that was encoded with `EncodeWtsZeroPts`.  Partial: one zero point for all
weights and adjacent channels.  `hn` excludes overflow of the 32-bit accumulator; 65535 inputs always fit. -/
theorem c61_issue_partial {tin tw tout : Tensor} {src wts dst : Buf} {n m : Int} (A : FcRun tin tw tout src wts dst n m) (z : Int)
    (hz : InRange 8 z) (hn : n * (2 ^ 7 * 2 ^ 7 + 2 ^ 7 * |z|) ≤ 2 ^ 31 - 1) :
    ∃ dst' val, fcIssue src wts (Buf.ofList (fcEncodeZp z)) 0 2 (fcAxis 1) tin tw tout dst = some dst' ∧ tout.Writes val dst dst' ∧
      ∀ o, 0 ≤ o → o < m → val [0, o] = dotSum n (fun i => src.get (tin.addr [0, i])) (fun i => wts.get (tw.addr [i, o]) - z) := by
  have hr : -128 ≤ z ∧ z ≤ 127 := hz
  obtain ⟨dst', val, h1, h2, h3⟩ := innerNoBias_all A z (by rw [abs_lt]; norm_num; omega) hn
  refine ⟨dst', val, ?_, h2, h3⟩
  have e : fcZeroPoint (Buf.ofList (fcEncodeZp z)) 0 2 (fcAxis 1) = some z := by
    have : ∀ z : Fin 256, fcZeroPoint (Buf.ofList (fcEncodeZp ((z : Int) - 128))) 0 2 (fcAxis 1) = some ((z : Int) - 128) := by decide +kernel
    have h := this ⟨(z + 128).toNat, by omega⟩
    have e : (((⟨(z + 128).toNat, by omega⟩ : Fin 256) : Nat) : Int) - 128 = z := by
      show (((z + 128).toNat : Nat) : Int) - 128 = z
      omega
    rwa [e] at h
  unfold fcIssue
  rw [e, Option.bind_some]
  exact h1

def exRunIn : Tensor := { dims := [⟨1, 3⟩, ⟨3, 1⟩], cap := 3, es := 1 }
def exRunW : Tensor := { dims := [⟨3, 5⟩, ⟨4, 1⟩], cap := 14, es := 1 }
def exRunO : Tensor := { dims := [⟨1, 4⟩, ⟨4, 1⟩], cap := 16, es := 4, base := 1 }
def exRunSrc : List Int := [10, -20, 30]
def exRunWts : List Int := [1, 2, 3, 4, 99, 5, 6, 7, 8, 99, -9, -10, -11, -12]

example : FcRun exRunIn exRunW exRunO (Buf.ofList exRunSrc) (Buf.ofList exRunWts) (Buf.ofList (List.replicate 6 77)) 3 4 ∧
    (fcIssue (Buf.ofList exRunSrc) (Buf.ofList exRunWts) (Buf.ofList (fcEncodeZp (-3))) 0 2 (fcAxis 1) exRunIn exRunW exRunO
      (Buf.ofList (List.replicate 6 77))).map Buf.toList = some [77, -300, -340, -380, -420, 77] :=
  ⟨⟨⟨by decide, by decide, by decide, by decide⟩, ⟨by decide, by decide, by decide, by decide⟩, ⟨by decide, by decide, by decide, by decide⟩,
    holds_ofList (by decide) _, holds_ofList (by decide) _, by decide, by decide, by decide⟩, by decide +kernel⟩

/-- C61 does not hold for zero points encoded by `EncodeWeightsAndZeroPts`: they take one byte each, but are read as 16-bit values.
A single zero point 3 makes the kernel read past the end of the encoded weights.  With zero point 1 for each of four outputs, the kernel subtracts
257. -/
theorem c61_encoding_violated (spec : Int → Int) (hs : ∀ o, spec o = dotSum 3 (fun i => exRunSrc.getD i.toNat 0)
      (fun i => exRunWts.getD (5 * i + o).toNat 0 - 1)) :
    fcIssue (Buf.ofList exRunSrc) (Buf.ofList exRunWts) (Buf.ofList (fcEncode exRunWts [3])) 14 1 (fcAxis 1) exRunIn exRunW exRunO
      (Buf.ofList (List.replicate 6 77)) = none ∧
    (fcIssue (Buf.ofList exRunSrc) (Buf.ofList exRunWts) (Buf.ofList (fcEncode exRunWts [1, 1, 1, 1])) 14 4 (fcAxis 4) exRunIn exRunW exRunO
      (Buf.ofList (List.replicate 6 77))).map Buf.toList =
      some [77, -5500, -5540, -5580, -5620, 77] ∧ [0, 1, 2, 3].map spec = [-380, -420, -460, -500] := by
  rw [funext hs]
  decide +kernel

/-- C61 does not hold for zero points that differ between outputs: the first one, here 1, is used for all of them. -/
theorem c61_channel_violated (zps : List Int) (h : zps = fcEncodeZp 1 ++ fcEncodeZp 2 ++ fcEncodeZp 3 ++ fcEncodeZp 4)
    (spec : Int → Int) (hs : ∀ o, spec o = dotSum 3 (fun i => exRunSrc.getD i.toNat 0)
      (fun i => exRunWts.getD (5 * i + o).toNat 0 - (o + 1))) :
    (fcIssue (Buf.ofList exRunSrc) (Buf.ofList exRunWts) (Buf.ofList zps) 0 8 (fcAxis 4) exRunIn exRunW exRunO
      (Buf.ofList (List.replicate 6 77))).map Buf.toList =
      some [77, -380, -420, -460, -500, 77] ∧ [0, 1, 2, 3].map spec = [-380, -440, -500, -560] := by
  subst h
  rw [funext hs]
  decide +kernel

end Mli
