import Verif.Model.FcLayer
import Verif.Props.FcIssue
import Verif.Props.LayerRuntime

/-! # C94: a fully connected layer of three kernels -/

namespace Mli.Rt

open Mli Mli.Iter Mli.Spec

/-! ## The parameters, copied as a whole -/

theorem HoldsArr.moved {sz n : Nat} {p : Int → Int} {off : Int} {b b' : Buf} (h : HoldsArr sz n p off b) {N : Nat} {pb : Int} (hpb : 0 ≤ pb)
    (hc : ∀ i : Nat, i < N → b'.get (pb + i) = b.get (0 + i)) (hN : off + n * sz ≤ N) (hs : pb + N ≤ b'.size) : HoldsArr sz n p (pb + off) b' := by
  have := h.inb
  refine ⟨⟨by omega, by omega⟩, fun i hi k hk => ?_⟩
  have h1 := idx_bytes (sz := sz) hi
  have h2 : (0 : Int) ≤ i * sz := by positivity
  have h3 := h.val i hi k hk
  have h4 := hc (off + i * sz + k).toNat (by omega)
  rw [Int.toNat_of_nonneg (by omega)] at h4
  rw [show pb + off + (i : Int) * sz + k = pb + (off + i * sz + k) by ring, h4, Int.zero_add]
  exact h3

/-- The encoded parameters, copied to the local memory as they are. -/
theorem rescale_copied (n : Nat) (inBias scale shift outBias enc : Buf) (h1 : Fits 4 n inBias) (h2 : Fits 2 n scale)
    (h3 : Fits 1 n shift) (h4 : Fits 1 n outBias) (hs : rescaleEncodedSize n 4 1 ≤ enc.size) (pb : Int) (pm : Buf) (hpb : 0 ≤ pb)
    (hpm : pb + rescaleEncodedSize n 4 1 ≤ pm.size) :
    ∃ enc' pm', rescaleEncode n 4 1 inBias scale shift outBias enc = some enc' ∧
      copyBytes (rescaleEncodedSize n 4 1).toNat enc' 0 pm pb = some pm' ∧ pm'.size = pm.size ∧
      Delivers 4 ((rescalePtrs pb n 4).getD 0 0) pm' inBias 0 n ∧ Delivers 2 ((rescalePtrs pb n 4).getD 1 0) pm' scale 0 n ∧
      Delivers 1 ((rescalePtrs pb n 4).getD 2 0) pm' shift 0 n ∧ Delivers 1 ((rescalePtrs pb n 4).getD 3 0) pm' outBias 0 n := by
  unfold rescaleEncodedSize at *
  obtain ⟨enc', k1, k2, ⟨a1, a2, a3, a4, -⟩, -⟩ := encAll_ok [(4, n, inBias), (2, n, scale), (1, n, shift), (1, n, outBias)] 0 enc (by
    intro e he
    simp only [List.mem_cons, List.not_mem_nil, or_false] at he
    rcases he with rfl | rfl | rfl | rfl
    exacts [h1.1, h2.1, h3.1, h4.1]) (le_refl _) (by simp only [totalBytes]; push_cast; omega)
  obtain ⟨pm', q1, q2, q3, -⟩ := copyBytes_ok ((n : Int) * (4 + 2 + 1 + 1)).toNat enc' 0 pm pb (le_refl _) (by omega) hpb (by omega)
  have z : ∀ (src : Buf), (fun i : Int => src.get (((0 : Nat) : Int) + i)) = fun i => src.get i := fun src => by
    funext i; simp
  refine ⟨enc', pm', k1, q1, q2, delivers_of ?_ (by omega) h1 (by omega), delivers_of ?_ (by omega) h2 (by omega), delivers_of ?_ (by omega) h3 (by omega),
    delivers_of ?_ (by omega) h4 (by omega)⟩
  · have := a1.moved hpb q3 (by push_cast; omega) (by omega)
    rw [z]
    convert this using 1
    simp [rescalePtrs]
  · have := a2.moved hpb q3 (by push_cast; omega) (by omega)
    rw [z]
    convert this using 1
    simp [rescalePtrs]; ring
  · have := a3.moved hpb q3 (by push_cast; omega) (by omega)
    rw [z]
    convert this using 1
    simp [rescalePtrs]; ring
  · have := a4.moved hpb q3 (by push_cast; omega) (by omega)
    rw [z]
    convert this using 1
    simp [rescalePtrs]; ring

/-! ## The tensors -/

theorem wholeIt_sizes (o : Int) : (wholeIt [o] [1]).sizes = [o] ∧ (wholeIt [o] [1]).strides = [1] := by
  refine ⟨?_, rfl⟩
  simp [wholeIt, TIt.start, TIt.sizes, wholeCfg, show List.range 4 = [0, 1, 2, 3] from rfl, reset, subTensor, tileSize]

theorem whole_np (o : Int) : maxParams false 0 (wholeIt [o] [1]) (parIt (wholeCfg [o]) o 0) = o := by
  simp [maxParams, parIt, followCfg, disableTiling, zeroInc, updateOrder, wholeCfg, TIt.start, show List.range 4 = [0, 1, 2, 3] from rfl]

theorem inShape1 {o : Int} {y : List Int} (hy : InShape [o] y) : ∃ k, y = [k] ∧ 0 ≤ k ∧ k < o := by
  match y, hy with
  | [k], hy => exact ⟨k, rfl, hy.1⟩

theorem abs_dotSum (n : Int) (X W : Int → Int) (B : Int) (h0 : 0 ≤ n) (h : ∀ i, 0 ≤ i → i < n → |X i * W i| ≤ B) : |dotSum n X W| ≤ n * B := by
  unfold dotSum
  refine (Finset.abs_sum_le_sum_abs _ _).trans ((Finset.sum_le_card_nsmul _ _ B fun i hi => ?_).trans ?_)
  · have := Finset.mem_range.1 hi
    exact h i (by omega) (by omega)
  · rw [Finset.card_range, nsmul_eq_mul]
    apply le_of_eq
    congr 1
    omega

/-- The sums of the fully connected kernel are numbers of 32 bits. -/
theorem dotSum_inRange {n : Int} {X W : Int → Int} (z : Int) (hz : InRange 8 z) (hn : n * (2 ^ 7 * 2 ^ 7 + 2 ^ 7 * |z|) ≤ 2 ^ 31 - 1)
    (hX : ∀ i, 0 ≤ i → i < n → InRange 8 (X i)) (hW : ∀ i, 0 ≤ i → i < n → InRange 8 (W i)) : InRange 32 (dotSum n X fun i => W i - z) := by
  rcases lt_or_ge n 0 with h | h0
  · have : dotSum n X (fun i => W i - z) = 0 := by
      unfold dotSum
      rw [Int.toNat_of_nonpos h.le]
      rfl
    rw [this]
    exact ⟨by decide, by decide⟩
  · have := abs_dotSum n X (fun i => W i - z) (2 ^ 7 * 2 ^ 7 + 2 ^ 7 * |z|) h0 (fun i i0 i1 => by
      have x1 : -128 ≤ X i ∧ X i ≤ 127 := hX i i0 i1
      have w1 : -128 ≤ W i ∧ W i ≤ 127 := hW i i0 i1
      have a1 : |X i| ≤ 128 := by rw [abs_le]; omega
      have a2 : |W i - z| ≤ 128 + |z| := (abs_sub _ _).trans (by
        have : |W i| ≤ 128 := by rw [abs_le]; omega
        omega)
      rw [abs_mul]
      calc |X i| * |W i - z| ≤ 128 * (128 + |z|) := mul_le_mul a1 a2 (abs_nonneg _) (by omega)
        _ = _ := by ring)
    have := abs_le.1 (this.trans hn)
    exact ⟨by show -(2:Int)^31 ≤ _; omega, by show _ ≤ (2:Int)^31 - 1; omega⟩

/-- Where the 8-bit results go: the output of RESCALE at `bm` and the output of CLIP at `bc`, `o` elements each.  The two may be the same but must not
overlap otherwise. -/
structure FcRoom (o bm bc : Int) (mid : Buf) : Prop where
  place : 0 ≤ bm ∧ bm + o ≤ mid.size
  last : 0 ≤ bc ∧ bc + o ≤ mid.size
  apart : bm = bc ∨ bm + o ≤ bc ∨ bc + o ≤ bm

theorem delivers_zero {sz n : Nat} {p : Int} {pm src : Buf} (h : Delivers sz p pm src 0 n) {y : List Int} (hy : InShape [(n : Int)] y) :
    (typed sz p pm).rd (paramIdx 0 y) = some (src.get (y.getD 0 0)) := by
  obtain ⟨k, rfl, k0, k1⟩ := inShape1 hy
  have := h k.toNat (by omega)
  rw [Int.toNat_of_nonneg k0] at this
  simpa [paramIdx] using this

/-- RESCALE as the layer uses it: the parameters it reads are those of the user, for one set of parameters or one for each output. -/
theorem fc_map (axis o : Int) (ha : axis = -1 ∨ axis = 0) (ho : 1 ≤ o) (bi bm pb : Int) (N : Nat) (hN : (N : Int) = if axis = -1 then 1 else o)
    (inBias scale shift outBias enc pm : Buf) (h1 : Fits 4 N inBias) (h2 : Fits 2 N scale) (h3 : Fits 1 N shift) (h4 : Fits 1 N outBias)
    (he : rescaleEncodedSize N 4 1 ≤ enc.size) (hpb : 0 ≤ pb) (hpm : pb + rescaleEncodedSize N 4 1 ≤ pm.size) :
    ∃ enc' pm' mo, rescaleEncode N 4 1 inBias scale shift outBias enc = some enc' ∧
      copyBytes (rescaleEncodedSize N 4 1).toNat enc' 0 pm pb = some pm' ∧
      MapObj.new false 4 1 axis (wholeIt [o] [1]) (parIt (wholeCfg [o]) o 0) (wholeIt [o] [1]) bi bm pb pm' = some mo ∧
      mo.prelu = false ∧ mo.esi = 4 ∧ mo.eso = 1 ∧ mo.axis = axis ∧ mo.tin = tileT [o] [1] bi ∧ mo.tout = tileT [o] [1] bm ∧
      (mo.rescaleParams pm').Reads axis [o] (fun y => inBias.get (paramIdx axis y)) (fun y => scale.get (paramIdx axis y))
        (fun y => shift.get (paramIdx axis y)) (fun y => outBias.get (paramIdx axis y)) := by
  obtain ⟨enc', pm', e1, e2, e3, d1, d2, d3, d4⟩ := rescale_copied N inBias scale shift outBias enc h1 h2 h3 h4 he pb pm hpb hpm
  obtain ⟨w1, w2⟩ := wholeIt_sizes o
  have hnp := whole_np o
  refine ⟨enc', pm', ?_⟩
  rcases ha with rfl | rfl
  · rw [if_pos rfl] at hN
    obtain rfl : N = 1 := by omega
    have hpm' := hpm
    unfold rescaleEncodedSize at hpm'
    have g1 := delivers_getLe d1 (by simp [rescalePtrs]; omega) (by simp [rescalePtrs]; omega)
    have g2 := delivers_getLe d2 (by simp [rescalePtrs]; omega) (by simp [rescalePtrs]; omega)
    have g3 := delivers_getLe d3 (by simp [rescalePtrs]; omega) (by simp [rescalePtrs]; omega)
    have g4 := delivers_getLe d4 (by simp [rescalePtrs]; omega) (by simp [rescalePtrs]; omega)
    refine ⟨{ prelu := false, esi := 4, eso := 1, axis := -1, inp := wholeIt [o] [1], par := parIt (wholeCfg [o]) o 0, out := wholeIt [o] [1], np := 1, pb
              imm := ⟨Buf.ofList [inBias.get 0], Buf.ofList [scale.get 0], Buf.ofList [shift.get 0], Buf.ofList [outBias.get 0]⟩
              tin := tileT [o] [1] bi, tout := tileT [o] [1] bm }, e1, e2, ?_, rfl, rfl, rfl, rfl, rfl, rfl, ?_⟩
    · unfold MapObj.new
      simp only [Bool.false_or, decide_eq_true_eq, ne_eq, not_true_eq_false, if_false]
      rw [show maxParams false (-1) (wholeIt [o] [1]) (parIt (wholeCfg [o]) o 0) = 1 from rfl, w1, w2]
      unfold immParams
      rw [show (1 : Int) = ((1 : Nat) : Int) from rfl, show (4 : Int) = ((4 : Nat) : Int) from rfl] at *
      rw [g1, Option.bind_some, g2, Option.bind_some, g3, Option.bind_some, g4]
      rfl
    · have one : ∀ (v : Int) (y : List Int), (Buf.ofList [v]).rd (paramIdx (-1) y) = some v := fun v y => by
        simp [paramIdx, Buf.rd, Buf.ofList]
      exact ⟨fun y _ => one _ y, fun y _ => one _ y, fun y _ => one _ y, fun y _ => one _ y⟩
  · rw [if_neg (by decide)] at hN
    rw [hN] at d1 d2 d3 d4
    refine ⟨{ prelu := false, esi := 4, eso := 1, axis := 0, inp := wholeIt [o] [1], par := parIt (wholeCfg [o]) o 0, out := wholeIt [o] [1], np := o, pb
              imm := ⟨Buf.ofList [], Buf.ofList [], Buf.ofList [], Buf.ofList []⟩
              tin := tileT [o] [1] bi, tout := tileT [o] [1] bm }, e1, e2, ?_, rfl, rfl, rfl, rfl, rfl, rfl, ?_⟩
    · unfold MapObj.new
      rw [hnp, w1, w2]
      rfl
    · have e : ∀ {y : List Int}, InShape [o] y → paramIdx 0 y = y.getD 0 0 := fun {y} hy => by
        obtain ⟨k, rfl, k0, k1⟩ := inShape1 hy
        simp [paramIdx]
      have rd : ∀ {sz : Nat} {p : Int} {src : Buf}, Delivers sz p pm' src 0 N → ∀ y, InShape [o] y →
          (typed sz p pm').rd (paramIdx 0 y) = some (src.get (paramIdx 0 y)) := fun hd y hy => by
        rw [delivers_zero hd (by rw [hN]; exact hy), e hy]
      exact ⟨rd d1, rd d2, rd d3, rd d4⟩

/-- C94.  Encode the zero point of the weights, the parameters of RESCALE (one set, `axis = -1`, or one for each output, `axis = 0`) and the limits of
CLIP, create the kernels and issue FULLY-CONNECTED, RESCALE and CLIP one after the other.  This ends with status OK.  Output `k` of the layer is
`round((sum - b_in) * s / 2^shift) + b_out`, limited to 8 bits and then to the limits of CLIP, where `sum` is the sum over the inputs of
`x[i] * (w[i, k] - z)` and the parameters are those of the user.  Of the buffer of 8-bit results nothing changes but the outputs of RESCALE and CLIP.

Partial: one zero point for all weights, encoded with `EncodeWtsZeroPts`, and adjacent channels (see C61); `sum - b_in` must be a number of 32 bits
(else it is limited to this range first, see C41). -/
theorem c94_fc_layer_partial (m : Rnd) {tin tw tout : Tensor} {src wts acc : Buf} {n o : Int} (A : FcRun tin tw tout src wts acc n o) (z : Int)
    (hz : InRange 8 z) (hn : n * (2 ^ 7 * 2 ^ 7 + 2 ^ 7 * |z|) ≤ 2 ^ 31 - 1) (ho : 1 ≤ o) (axis : Int) (ha : axis = -1 ∨ axis = 0) (bm bc pb pc : Int)
    (mid pm cp enc cenc : Buf) (room : FcRoom o bm bc mid) (N : Nat) (hN : (N : Int) = if axis = -1 then 1 else o)
    (inBias scale shift outBias minV maxV : Buf) (h1 : Fits 4 N inBias) (h2 : Fits 2 N scale) (h3 : Fits 1 N shift) (h4 : Fits 1 N outBias)
    (h5 : Fits 1 1 minV) (h6 : Fits 1 1 maxV) (he : rescaleEncodedSize N 4 1 ≤ enc.size) (hpb : 0 ≤ pb) (hpm : pb + rescaleEncodedSize N 4 1 ≤ pm.size)
    (hce : clipEncodedSize ≤ cenc.size) (hpc : 0 ≤ pc) (hcp : pc + clipEncodedSize ≤ cp.size) (sum : Int → Int)
    (hsum : ∀ k, sum k = dotSum n (fun i => src.get (tin.addr [0, i])) (fun i => wts.get (tw.addr [i, k]) - z))
    (hd : ∀ k, 0 ≤ k → k < o → InRange 32 (sum k - inBias.get (paramIdx axis [k]))) :
    ∃ enc' pm' cenc' cp' mo acc' out, rescaleEncode N 4 1 inBias scale shift outBias enc = some enc' ∧
      copyBytes (rescaleEncodedSize N 4 1).toNat enc' 0 pm pb = some pm' ∧
      clipEncode minV maxV cenc = some cenc' ∧ copyBytes clipEncodedSize.toNat cenc' 0 cp pc = some cp' ∧
      MapObj.new false 4 1 axis (wholeIt [o] [1]) (parIt (wholeCfg [o]) o 0) (wholeIt [o] [1]) tout.base bm pb pm' = some mo ∧
      fcLayer m src wts (Buf.ofList (fcEncodeZp z)) 0 2 (fcAxis 1) tin tw tout mo (ClipObj.new 1 (wholeIt [o] [1]) (wholeIt [o] [1]) bm bc pc) pm' cp' acc mid =
        some (.ok, acc', out) ∧ out.size = mid.size ∧
      (∀ k, 0 ≤ k → k < o → ∃ v, Rescaled m 8 (sum k) (inBias.get (paramIdx axis [k])) (scale.get (paramIdx axis [k])) (shift.get (paramIdx axis [k]))
        (outBias.get (paramIdx axis [k])) v ∧ out.get (bc + k) = min (max v (minV.get 0)) (maxV.get 0)) ∧
      ∀ a, (a < bm ∨ bm + o ≤ a) → (a < bc ∨ bc + o ≤ a) → out.get a = mid.get a := by
  obtain ⟨acc', val, f1, f2, f3⟩ := c61_issue_partial A z hz hn
  obtain ⟨enc', pm', mo, e1, e2, e3, m1, m2, m3, m4, m5, m6, m7⟩ := fc_map axis o ha ho tout.base bm pb N hN inBias scale shift outBias enc pm h1 h2 h3 h4 he hpb hpm
  obtain ⟨cenc', c1, -, -, c4⟩ := c71_clip_partial minV maxV cenc h5 h6 hce
  obtain ⟨cp', c5, c6⟩ := c4 pc cp hpc hcp
  have off1 : ∀ k : Int, offset [1] [k] = k := fun k => by simp [offset]
  obtain ⟨p1, p2⟩ := room.place
  obtain ⟨q1, q2⟩ := room.last
  have q3 := room.apart
  obtain ⟨a, b, eo, ea, eb, es⟩ := dims2 A.so.1 A.so.2
  have addr : ∀ k, tout.addr [0, k] = tout.base + k := fun k => by
    simp [Tensor.addr, Tensor.strides, eo, offset, es]
  have osh : ∀ k, 0 ≤ k → k < o → InShape tout.shape [0, k] := fun k k0 k1 => by
    rw [A.so.1]
    exact ⟨⟨by omega, by omega⟩, ⟨k0, k1⟩, trivial⟩
  have accv : ∀ k, 0 ≤ k → k < o → acc'.get (tout.base + k) = sum k := fun k k0 k1 => by
    rw [← addr, f2.elem _ (osh k k0 k1), f3 k k0 k1, hsum]
  obtain ⟨d', g1, g2⟩ := rescale_writes m 32 8 axis (mo.rescaleParams pm') (sz := [o]) (li := [1]) (lo := [1]) (bi := tout.base) (bo := bm) (src := acc')
    (dst := mid) (by simp) (by simp; omega) rfl rfl
    (fun y hy => by
      obtain ⟨k, rfl, k0, k1⟩ := inShape1 hy
      rw [off1, ← addr, f2.size]
      exact A.vo.inBounds (osh k k0 k1))
    (fun y hy => by
      obtain ⟨k, rfl, k0, k1⟩ := inShape1 hy
      rw [off1]
      omega)
    (fun y w hy hw e => by
      obtain ⟨k, rfl, -⟩ := inShape1 hy
      obtain ⟨l, rfl, -⟩ := inShape1 hw
      rw [off1, off1] at e
      rw [e])
    (fun y => sum (y.getD 0 0)) _ _ _ _
    (fun y hy => by
      obtain ⟨k, rfl, k0, k1⟩ := inShape1 hy
      rw [off1]
      exact accv k k0 k1) m7
  obtain ⟨out, k1, k2⟩ := clip_writes (minV.get 0) (maxV.get 0) (sz := [o]) (li := [1]) (lo := [1]) (bi := bm) (bo := bc) (mem := d') (by simp) rfl rfl
    (fun y hy => by
      obtain ⟨k, rfl, k0, k1⟩ := inShape1 hy
      rw [off1, g2.size]
      omega)
    (fun y hy => by
      obtain ⟨k, rfl, k0, k1⟩ := inShape1 hy
      rw [off1, g2.size]
      omega)
    (fun y w hy hw e => by
      obtain ⟨k, rfl, -⟩ := inShape1 hy
      obtain ⟨l, rfl, -⟩ := inShape1 hw
      rw [off1, off1] at e
      rw [e])
    (fun y w hy hw e => by
      obtain ⟨k, rfl, k0, k1⟩ := inShape1 hy
      obtain ⟨l, rfl, l0, l1⟩ := inShape1 hw
      rw [off1, off1] at e
      have : k = l := by omega
      rw [this])
  have tad : ∀ (p k : Int), (tileT [o] [1] p).addr [k] = p + k := fun p k => by
    rw [tileT_addr (sz := [o]) (st := [1]) rfl, off1]
  have tsh : ∀ p, (tileT [o] [1] p).shape = [o] := fun p => tileT_shape (sz := [o]) (st := [1]) rfl p
  refine ⟨enc', pm', cenc', cp', mo, acc', out, e1, e2, c1, c5, e3, ?_, by rw [k2.size, g2.size], fun k k0 k1 => ?_, fun a h1 h2 => ?_⟩
  · unfold fcLayer
    rw [f1, Option.bind_some, issue_rescale (k := axis) m1 m2 m3 m4 (by rw [m5, m6]; exact g1), Option.bind_some]
    unfold ClipObj.issue ClipObj.new
    simp only
    rw [c6, Option.bind_some, (wholeIt_sizes o).1]
    show Option.map _ (clipIssue 1 1 (minV.get 0) (maxV.get 0) (tileT [o] [1] bm) (tileT [o] [1] bc) d') = _
    unfold clipIssue
    rw [if_pos ⟨rfl, rfl⟩, k1]
    rfl
  · have hin : InShape [o] [k] := ⟨⟨k0, k1⟩, trivial⟩
    have x1 := k2.elem [k] (by rw [tsh]; exact hin)
    have x2 := g2.elem [k] (by rw [tsh]; exact hin)
    rw [tad] at x1 x2
    rw [off1, x2] at x1
    refine ⟨_, ?_, x1⟩
    have ix : ∃ i : Nat, i < N ∧ paramIdx axis [k] = i := by
      rcases ha with rfl | rfl
      · exact ⟨0, by rw [if_pos rfl] at hN; omega, by simp [paramIdx]⟩
      · rw [if_neg (by decide)] at hN
        exact ⟨k.toNat, by omega, by simp [paramIdx]; omega⟩
    obtain ⟨i, i1, i2⟩ := ix
    have hsr : InRange 32 (sum k) := by
      rw [hsum]
      exact dotSum_inRange z hz hn (fun i i0 i1 => A.hi [0, i] (by rw [A.si.1]; exact ⟨⟨by omega, by omega⟩, ⟨i0, i1⟩, trivial⟩))
        (fun i i0 i1 => A.hw [i, k] (by rw [A.sw.1]; exact ⟨⟨i0, i1⟩, ⟨k0, k1⟩, trivial⟩))
    have j1 : InRange 32 (inBias.get (paramIdx axis [k])) := by rw [i2]; exact h1.2 i i1
    have j2 : InRange 8 (outBias.get (paramIdx axis [k])) := by rw [i2]; exact h4.2 i i1
    have j3 : InRange 16 (scale.get (paramIdx axis [k])) := by rw [i2]; exact h2.2 i i1
    obtain ⟨r, r1, r2⟩ := rescaleValue_spec m (wi := 32) (wo := 8) (by omega) (by omega) (shift.get (paramIdx axis [k])) hsr j1 j2 j3
    rw [clamp_of_inRange (hd k k0 k1)] at r1
    exact ⟨r, r1, r2⟩
  · rw [k2.frame a (fun y hy => by
      rw [tsh] at hy
      obtain ⟨k, rfl, k0, k1⟩ := inShape1 hy
      rw [tad]
      omega), g2.frame a (fun y hy => by
      rw [tsh] at hy
      obtain ⟨k, rfl, k0, k1⟩ := inShape1 hy
      rw [tad]
      omega)]

/-- Parameters of the example, for four outputs. -/
def exFcPars (i : Nat) : Buf := Buf.ofList ([[0, 10, -20, 5], [3, 5, 7, 9], [4, 5, 6, 7], [1, -2, 3, -4]].getD i [])

/-- The hypotheses of the theorem hold of the tensors of the example of C61, with one set of parameters and with one for each output. -/
example (per : Bool) : ∃ enc' pm' cenc' cp' mo acc' out, rescaleEncode (if per then 4 else 1 : Nat) 4 1 (exFcPars 0) (exFcPars 1)
      (exFcPars 2) (exFcPars 3) (Buf.ofList (List.replicate 40 0)) = some enc' ∧
    clipEncode (Buf.ofList [-40]) (Buf.ofList [50]) (Buf.ofList [0, 0]) = some cenc' ∧
    fcLayer .up (Buf.ofList exRunSrc) (Buf.ofList exRunWts) (Buf.ofList (fcEncodeZp (-3))) 0 2 (fcAxis 1) exRunIn exRunW exRunO mo
      (ClipObj.new 1 (wholeIt [4] [1]) (wholeIt [4] [1]) 1 6 1) pm' cp' (Buf.ofList (List.replicate 6 77)) (Buf.ofList (List.replicate 11 77)) =
      some (.ok, acc', out) ∧ out.get 10 = 77 ∧
    ∃ v, Rescaled .up 8 (-340) (if per then 10 else 0) (if per then 5 else 3) (if per then 5 else 4) (if per then -2 else 1) v ∧ out.get 7 = min (max v (-40)) 50 := by
  have run : FcRun exRunIn exRunW exRunO (Buf.ofList exRunSrc) (Buf.ofList exRunWts) (Buf.ofList (List.replicate 6 77)) 3 4 :=
    ⟨⟨by decide, by decide, by decide, by decide⟩, ⟨by decide, by decide, by decide, by decide⟩, ⟨by decide, by decide, by decide, by decide⟩,
      holds_ofList (by decide) _, holds_ofList (by decide) _, by decide, by decide, by decide⟩
  obtain ⟨enc', pm', cenc', cp', mo, acc', out, h1, -, h2, -, -, h3, -, h4, h5⟩ := c94_fc_layer_partial .up run (-3) (by decide) (by decide) (by decide)
    (if per then 0 else -1) (by cases per <;> decide) 1 6 2 1 (Buf.ofList (List.replicate 11 77)) (Buf.ofList (List.replicate 42 0)) (Buf.ofList [0, 0, 0])
    (Buf.ofList (List.replicate 40 0)) (Buf.ofList [0, 0]) ⟨by decide, by decide, by decide⟩ (if per then 4 else 1) (by cases per <;> rfl)
    (exFcPars 0) (exFcPars 1) (exFcPars 2) (exFcPars 3) (Buf.ofList [-40]) (Buf.ofList [50])
    (by cases per <;> unfold Fits <;> decide) (by cases per <;> unfold Fits <;> decide) (by cases per <;> unfold Fits <;> decide)
    (by cases per <;> unfold Fits <;> decide) (by unfold Fits; decide) (by unfold Fits; decide) (by cases per <;> decide) (by decide)
    (by cases per <;> decide) (by decide) (by decide) (by decide) _ (fun _ => rfl)
    (fun k k0 k1 => by
      have : ∀ (p : Bool) (k : Fin 4), InRange 32 (dotSum 3 (fun i => (Buf.ofList exRunSrc).get (exRunIn.addr [0, i]))
          (fun i => (Buf.ofList exRunWts).get (exRunW.addr [i, (k : Int)]) - -3) - (exFcPars 0).get (paramIdx (if p then 0 else -1) [(k : Int)])) := by decide +kernel
      have := this per ⟨k.toNat, by omega⟩
      rwa [show (((⟨k.toNat, by omega⟩ : Fin 4) : Nat) : Int) = k from Int.toNat_of_nonneg k0] at this)
  refine ⟨enc', pm', cenc', cp', mo, acc', out, h1, h2, h3, h5 10 (by decide) (by decide), ?_⟩
  obtain ⟨v, r1, r2⟩ := h4 1 (by decide) (by decide)
  refine ⟨v, ?_, r2⟩
  rw [show dotSum 3 (fun i => (Buf.ofList exRunSrc).get (exRunIn.addr [0, i])) (fun i => (Buf.ofList exRunWts).get (exRunW.addr [i, 1]) - -3) = -340 by decide +kernel] at r1
  cases per <;> exact r1

/-- A run of the layer from the parameters of the user to the results. -/
example : ((rescaleEncode 4 4 1 (exFcPars 0) (exFcPars 1) (exFcPars 2) (exFcPars 3)
      (Buf.ofList (List.replicate 40 0))).bind fun enc =>
    (copyBytes (rescaleEncodedSize 4 4 1).toNat enc 0 (Buf.ofList (List.replicate 42 0)) 2).bind fun pm =>
    (clipEncode (Buf.ofList [-40]) (Buf.ofList [50]) (Buf.ofList [0, 0])).bind fun cp =>
    (MapObj.new false 4 1 0 (wholeIt [4] [1]) (parIt (wholeCfg [4]) 4 0) (wholeIt [4] [1]) 1 1 2 pm).bind fun mo =>
    (fcLayer .up (Buf.ofList exRunSrc) (Buf.ofList exRunWts) (Buf.ofList (fcEncodeZp (-3))) 0 2 (fcAxis 1) exRunIn exRunW exRunO mo
      (ClipObj.new 1 (wholeIt [4] [1]) (wholeIt [4] [1]) 1 6 0) pm cp (Buf.ofList (List.replicate 6 77)) (Buf.ofList (List.replicate 11 77))).map
      fun r => (r.1, r.2.1.toList, r.2.2.toList)) =
    some (.ok, [77, -300, -340, -380, -420, 77], [77, -55, -57, -36, -34, 77, -40, -40, -36, -34, 77]) := by decide +kernel

end Mli.Rt
