import Verif.Lemmas.MapRuntime
import Verif.Props.EltRuntime

/-! # C72: the run-time kernels RESCALE and PRELU tile by tile -/

namespace Mli.Rt

open Mli Mli.Iter Mli.Spec

theorem addPos_coord {p q : List Int} (h : p.length = q.length) {d : Nat} (hd : d < p.length) : (addPos p q).getD d 0 = p.getD d 0 + q.getD d 0 := by
  unfold addPos
  simp only [List.getD_eq_getElem?_getD, List.getElem?_zipWith]
  rw [List.getElem?_eq_getElem hd, List.getElem?_eq_getElem (by omega : d < q.length)]
  rfl

/-- What the kernel reads at a position of the tile is the user's parameter of the channel. -/
theorem delivers_rd {sz : Nat} {p : Int} {pm src : Buf} {o cnt a : Nat} (h : Delivers sz p pm src o cnt) {size pos y : List Int} (hy : InShape size y)
    (hl : size.length = pos.length) (ha : a < size.length) (hc : size.getD a 0 = cnt) (ho : pos.getD a 0 = o) :
    (typed sz p pm).rd (paramIdx a y) = some (src.get ((addPos y pos).getD a 0)) := by
  have hyl := inShape_length _ _ hy
  obtain ⟨y0, y1⟩ := inShape_getD hy ha
  have := h (y.getD a 0).toNat (by omega)
  have e : paramIdx (a : Int) y = (((y.getD a 0).toNat : Nat) : Int) := by
    unfold paramIdx
    rw [if_neg (by omega), Int.toNat_natCast]
    omega
  rw [e, this, addPos_coord (by omega) (by omega), ho]
  congr 2
  omega

/-- The parameter iterator follows dimension `a` of the output iterator. -/
theorem par_tile {shape tiles : List Int} {skew : Int} (h : TilingOk shape tiles (List.range shape.length) skew) (ht : tiles.length = shape.length)
    (hr : shape.length = 4) {a : Nat} (ha : a < 4) (lo : List Int) (inp : TIt) (n : Nat) :
    ((parIt (tileCfg shape tiles (List.range shape.length) skew) (shape.getD a 0) a).at n).sizes =
        [((TIt.start (tileCfg shape tiles (List.range shape.length) skew) shape lo).at n).sizes.getD a 0] ∧
      maxParams false a inp (parIt (tileCfg shape tiles (List.range shape.length) skew) (shape.getD a 0) a) = tiles.getD a 0 := by
  match shape, hr, tiles, ht, h with
  | [n0, n1, n2, n3], _, [t0, t1, t2, t3], _, h => exact par_at h a ha lo inp n

/-- C72 for RESCALE with one set of parameters for each position along dimension `a`: encoding the parameters, creating the kernel and going through all
tiles - copy the input tile and the parameters of the tile, `Issue`, copy the output tile back, `Update` - gives status OK and, for each element `x` of
the input in global memory, the element `round((x - b_in) * s / 2^k) + b_out`, limited to 8 bits, in the output tensor, with the user's parameters of its
position; nothing else in the output buffer changes.  Input elements have 32 or 8 bits.

Partial: the iterators go through the dimensions in their own order, `x - b_in` must be in the range of the input type (else it is limited to this range
first, see C41); other element sizes are not implemented (see the violations). -/
theorem c72_rescale_tiled_partial (m : Rnd) {wi : Nat} (hw : wi = 32 ∨ wi = 8) (shape tiles : List Int) (skew : Int) (hr : shape.length = 4) (a : Nat)
    (ha : a < 4) (li lo : List Int) (bi bo pb : Int) (gin : Glob) (gos : List Int) (lin lout gout pm enc : Buf)
    (h : MapOk shape tiles skew li lo bi bo gin gos lin lout gout) (inBias scale shift outBias : Buf)
    (h1 : Fits (wi / 8) (shape.getD a 0).toNat inBias) (h2 : Fits 2 (shape.getD a 0).toNat scale) (h3 : Fits 1 (shape.getD a 0).toNat shift)
    (h4 : Fits 1 (shape.getD a 0).toNat outBias) (he : rescaleEncodedSize (shape.getD a 0) (wi / 8 : Nat) 1 ≤ enc.size)
    (hpb : 0 ≤ pb) (hpm : pb + rescaleEncodedSize (tiles.getD a 0) (wi / 8 : Nat) 1 ≤ pm.size)
    (hx : ∀ x, InShape shape x → InRange wi (gin.buf.get (offset gin.strides x)))
    (hd : ∀ x, InShape shape x → InRange wi (gin.buf.get (offset gin.strides x) - inBias.get (x.getD a 0))) :
    let cfg := tileCfg shape tiles (List.range shape.length) skew
    let inp := TIt.start cfg shape li
    let out := TIt.start cfg shape lo
    ∃ enc' o s val, rescaleEncode (shape.getD a 0).toNat (wi / 8) 1 inBias scale shift outBias enc = some enc' ∧
      MapObj.new false (wi / 8) 1 a inp (parIt cfg (shape.getD a 0) a) out bi bo pb pm = some o ∧
      MapHost.run m gin enc' (shape.getD a 0) gos (totalCount out.cfg).toNat ⟨o, lin, lout, pm, gout, .ok⟩ = some s ∧ s.status = .ok ∧
      Result shape gos val gout s.gout ∧
      ∀ x, InShape shape x → Rescaled m 8 (gin.buf.get (offset gin.strides x)) (inBias.get (x.getD a 0)) (scale.get (x.getD a 0)) (shift.get (x.getD a 0))
        (outBias.get (x.getD a 0)) (val x) := by
  intro cfg inp out
  have hT := h.tiling
  have hq := tileSeq_range hT h.rank lo
  have hw8 : 1 ≤ wi / 8 := by omega
  have hn1 : 1 ≤ shape.getD a 0 := by
    have := hq.box 0 a (by omega)
    omega
  have eN : (((shape.getD a 0).toNat : Nat) : Int) = shape.getD a 0 := by omega
  obtain ⟨enc', e1, -, -, e4⟩ := c71_rescale (shape.getD a 0).toNat (wi / 8) 1 inBias scale shift outBias enc ⟨hw8, by omega⟩ h1 h2 h3 h4 (by rw [eN]; exact he)
  have hpar : ∀ n, ((parIt cfg (shape.getD a 0) a).at n).sizes = [(out.at n).sizes.getD a 0] ∧
      maxParams false a inp (parIt cfg (shape.getD a 0) a) = tiles.getD a 0 := fun n => par_tile hT h.rank hr ha lo inp n
  let o : MapObj := { prelu := false, esi := wi / 8, eso := 1, axis := a, inp, par := parIt cfg (shape.getD a 0) a, out
                      np := maxParams false a inp (parIt cfg (shape.getD a 0) a), pb
                      imm := ⟨Buf.ofList [], Buf.ofList [], Buf.ofList [], Buf.ofList []⟩
                      tin := tileT inp.sizes inp.strides bi, tout := tileT out.sizes out.strides bo }
  have hax : (a : Int) ≠ -1 := by omega
  have ho : MapObj.new false (wi / 8) 1 a inp (parIt cfg (shape.getD a 0) a) out bi bo pb pm = some o := by
    unfold MapObj.new
    simp only [Bool.false_or, decide_eq_true_eq, ne_eq]
    rw [if_pos (by omega)]
    rfl
  have hnp : o.np = tiles.getD a 0 := (hpar 0).2
  let val : List Int → Int := fun x => rescaleValue m wi 8 (gin.buf.get (offset gin.strides x)) (inBias.get (x.getD a 0)) (outBias.get (x.getD a 0))
    (scale.get (x.getD a 0)) (shift.get (x.getD a 0))
  obtain ⟨s, k1, k2, k3⟩ := map_run (m := m) h o rfl rfl rfl rfl rfl enc' (shape.getD a 0) val pm (by
    intro n pm' l d p1 p2 p3 p4 p5
    have hlen : (out.at n).sizes.length = 4 := by rw [← hr]; exact hq.lenS n
    have hplen : (out.at n).getPos.length = 4 := by rw [← hr]; exact hq.lenP n
    obtain ⟨x1, x2, x3, x4⟩ := hq.box n a (by omega)
    have x1' : 0 ≤ (out.at n).getPos.getD a 0 := x1
    have x2' : 1 ≤ (out.at n).sizes.getD a 0 := x2
    have x3' : (out.at n).sizes.getD a 0 ≤ tiles.getD a 0 := x3
    have x4' : (out.at n).getPos.getD a 0 + (out.at n).sizes.getD a 0 ≤ shape.getD a 0 := x4
    have eo : (((out.at n).getPos.getD a 0).toNat : Int) = (out.at n).getPos.getD a 0 := by omega
    have ec : (((out.at n).sizes.getD a 0).toNat : Int) = (out.at n).sizes.getD a 0 := by omega
    obtain ⟨pm'', f1, f2, f3, f4, f5, f6⟩ := e4 ((out.at n).getPos.getD a 0).toNat ((out.at n).sizes.getD a 0).toNat (tiles.getD a 0) pb pm'
      (by omega) (by omega) hpb (by rw [p1]; exact hpm)
    rw [eN, eo, ec] at f1
    have hli : (out.at n).sizes.length = li.length := by rw [h.room.len, h.rank]; omega
    have hlo : (out.at n).sizes.length = lo.length := by rw [h.roomOut.len, h.rank]; omega
    have rd : ∀ {sz : Nat} {p : Int} {src : Buf}, Delivers sz p pm'' src ((out.at n).getPos.getD a 0).toNat ((out.at n).sizes.getD a 0).toNat →
        ∀ y, InShape (out.at n).sizes y → (typed sz p pm'').rd (paramIdx a y) = some (src.get ((addPos y (out.at n).getPos).getD a 0)) :=
      fun hdl y hy => delivers_rd hdl hy (by omega) (by omega) ec.symm eo.symm
    obtain ⟨d', g1, g2, g3⟩ := rescale_tile m wi 8 a (o.rescaleParams pm'') (sz := (out.at n).sizes) (li := li) (lo := lo) (bi := bi) (bo := bo) (src := l)
      (dst := d) (by omega) (by omega) hli hlo (fun y hy => by rw [p3]; exact h.room.inb y (hq.local_ hy))
      (fun y hy => by rw [p4]; exact h.roomOut.inb y (hq.local_ hy)) (fun y z hy hz e => h.roomOut.inj y z (hq.local_ hy) (hq.local_ hz) e)
      (fun y => gin.buf.get (offset gin.strides (addPos y (out.at n).getPos))) (fun y => inBias.get ((addPos y (out.at n).getPos).getD a 0))
      (fun y => scale.get ((addPos y (out.at n).getPos).getD a 0)) (fun y => shift.get ((addPos y (out.at n).getPos).getD a 0))
      (fun y => outBias.get ((addPos y (out.at n).getPos).getD a 0)) p5 (by
        unfold MapObj.rescaleParams
        rw [if_neg hax]
        simp only
        rw [hnp]
        exact ⟨rd f3, rd f4, rd f5, rd f6⟩)
    refine ⟨pm'', d', ?_, by omega, fun c => absurd c hax, ?_, g2, g3⟩
    · rw [if_neg hax]
      show fetchParams (shape.getD a 0) ((out.at n).getPos.getD (Int.toNat a) 0) (((parIt cfg (shape.getD a 0) a).at n).sizes.getD 0 0) pb enc'
        [wi / 8, 2, 1, 1] (rescaleOffsets o.np (wi / 8 : Nat)) 0 pm' = _
      rw [hnp, (hpar n).1, Int.toNat_natCast]
      exact f1
    · show rescaleIssue m (wi / 8 : Nat) (1 : Nat) a (o.rescaleParams pm'') l (tileT (out.at n).sizes li bi) (tileT (out.at n).sizes lo bo) d = _
      unfold rescaleIssue
      rcases hw with rfl | rfl
      · rw [if_pos (by decide), g1]; rfl
      · rw [if_neg (by decide), if_pos (by decide), g1]; rfl)
  refine ⟨enc', o, s, val, e1, ho, k1, k2, k3, fun x hxs => ?_⟩
  have hxa := inShape_getD hxs (show a < shape.length by omega)
  have cast : ((x.getD a 0).toNat : Int) = x.getD a 0 := by omega
  have f : ∀ {sz : Nat} {src : Buf}, Fits sz (shape.getD a 0).toNat src → InRange (8 * sz) (src.get (x.getD a 0)) := fun hf => by
    have := hf.2 (x.getD a 0).toNat (by omega)
    rwa [cast] at this
  have e8 : 8 * (wi / 8) = wi := by omega
  obtain ⟨r, r1, r2⟩ := rescaleValue_spec m (wi := wi) (wo := 8) (by omega) (by omega) (shift.get (x.getD a 0)) (hx x hxs) (by have := f h1; rwa [e8] at this)
    (by simpa using f h4) (by simpa using f h2)
  rw [clamp_of_inRange (hd x hxs)] at r1
  exact ⟨r, r1, r2⟩

/-! ## One set of parameters -/

theorem getRaw_def : ∀ (n : Nat) (off : Int) (b : Buf), 0 ≤ off → off + n ≤ b.size → ∃ v, getRaw n off b = some v
  | 0, _, _, _, _ => ⟨0, rfl⟩
  | n + 1, off, b, h0, h1 => by
    push_cast at h1
    obtain ⟨v, hv⟩ := getRaw_def n (off + 1) b (by omega) (by omega)
    unfold getRaw
    rw [Buf.rd_some (by omega), Option.bind_some, hv]
    exact ⟨_, rfl⟩

theorem delivers_getLe {sz : Nat} {p : Int} {pm src : Buf} (h : Delivers sz p pm src 0 1) (h0 : 0 ≤ p) (h1 : p + sz ≤ pm.size) :
    getLe sz p pm = some (src.get 0) := by
  have := h 0 (by omega)
  unfold Buf.rd at this
  split at this
  · rename_i hb
    obtain ⟨v, hv⟩ := getRaw_def sz p pm h0 h1
    simp only [typed, Nat.cast_zero, Int.zero_mul, Int.add_zero, getLe, hv, Option.map_some, Option.getD_some, Option.some.injEq] at this
    unfold getLe
    rw [hv, Option.map_some, this]
  · exact absurd this (by simp)

/-- C72 for RESCALE with one set of parameters, which is copied to the local buffer before the kernel is created.  Partial: as above, and the parameters
must be in place when the kernel is created. -/
theorem c72_rescale_tensor_tiled_partial (m : Rnd) {wi : Nat} (hw : wi = 32 ∨ wi = 8) (shape tiles : List Int) (skew : Int) (hr : shape.length ≤ 4)
    (li lo : List Int) (bi bo pb : Int) (gin : Glob) (gos : List Int) (lin lout gout pm enc : Buf) (pc : List DimCfg) (ps pst : List Int) (N : Int) (other : Buf)
    (h : MapOk shape tiles skew li lo bi bo gin gos lin lout gout) (inBias scale shift outBias : Buf)
    (h1 : Fits (wi / 8) 1 inBias) (h2 : Fits 2 1 scale) (h3 : Fits 1 1 shift) (h4 : Fits 1 1 outBias) (he : rescaleEncodedSize 1 (wi / 8 : Nat) 1 ≤ enc.size)
    (hpb : 0 ≤ pb) (hpm : pb + rescaleEncodedSize 1 (wi / 8 : Nat) 1 ≤ pm.size)
    (hx : ∀ x, InShape shape x → InRange wi (gin.buf.get (offset gin.strides x)))
    (hd : ∀ x, InShape shape x → InRange wi (gin.buf.get (offset gin.strides x) - inBias.get 0)) :
    let cfg := tileCfg shape tiles (List.range shape.length) skew
    let inp := TIt.start cfg shape li
    let out := TIt.start cfg shape lo
    let par := TIt.start pc ps pst
    ∃ enc' pm' o s val, rescaleEncode 1 (wi / 8) 1 inBias scale shift outBias enc = some enc' ∧
      fetchParams 1 0 1 pb enc' [wi / 8, 2, 1, 1] (rescaleOffsets 1 (wi / 8 : Nat)) 0 pm = some pm' ∧
      MapObj.new false (wi / 8) 1 (-1) inp par out bi bo pb pm' = some o ∧
      MapHost.run m gin other N gos (totalCount out.cfg).toNat ⟨o, lin, lout, pm', gout, .ok⟩ = some s ∧ s.status = .ok ∧
      Result shape gos val gout s.gout ∧
      ∀ x, InShape shape x → Rescaled m 8 (gin.buf.get (offset gin.strides x)) (inBias.get 0) (scale.get 0) (shift.get 0) (outBias.get 0) (val x) := by
  intro cfg inp out par
  have hT := h.tiling
  have hq := tileSeq_range hT h.rank lo
  have hw8 : 1 ≤ wi / 8 := by omega
  obtain ⟨enc', e1, -, -, e4⟩ := c71_rescale 1 (wi / 8) 1 inBias scale shift outBias enc ⟨hw8, by omega⟩ h1 h2 h3 h4 he
  obtain ⟨pm', f1, f2, f3, f4, f5, f6⟩ := e4 0 1 1 pb pm (by omega) (by omega) hpb hpm
  unfold rescaleEncodedSize at hpm
  have g1 := delivers_getLe f3 (by simp [rescalePtrs]; omega) (by simp [rescalePtrs]; omega)
  have g2 := delivers_getLe f4 (by simp [rescalePtrs]; omega) (by simp [rescalePtrs]; omega)
  have g3 := delivers_getLe f5 (by simp [rescalePtrs]; omega) (by simp [rescalePtrs]; omega)
  have g4 := delivers_getLe f6 (by simp [rescalePtrs]; omega) (by simp [rescalePtrs]; omega)
  let o : MapObj := { prelu := false, esi := wi / 8, eso := 1, axis := -1, inp, par, out, np := 1, pb
                      imm := ⟨Buf.ofList [inBias.get 0], Buf.ofList [scale.get 0], Buf.ofList [shift.get 0], Buf.ofList [outBias.get 0]⟩
                      tin := tileT inp.sizes inp.strides bi, tout := tileT out.sizes out.strides bo }
  have ho : MapObj.new false (wi / 8) 1 (-1) inp par out bi bo pb pm' = some o := by
    unfold MapObj.new
    simp only [Bool.false_or, decide_eq_true_eq, ne_eq, not_true_eq_false, if_false]
    rw [show maxParams false (-1) inp par = 1 from rfl]
    unfold immParams
    rw [g1, Option.bind_some, g2, Option.bind_some, g3, Option.bind_some, g4]
    rfl
  let val : List Int → Int := fun x => rescaleValue m wi 8 (gin.buf.get (offset gin.strides x)) (inBias.get 0) (outBias.get 0) (scale.get 0) (shift.get 0)
  have one : ∀ (v : Int) (y : List Int), (Buf.ofList [v]).rd (paramIdx (-1) y) = some v := fun v y => by
    simp [paramIdx, Buf.rd, Buf.ofList]
  obtain ⟨s, k1, k2, k3⟩ := map_run (m := m) h o rfl rfl rfl rfl rfl other N val pm' (by
    intro n pm1 l d p1 p2 p3 p4 p5
    have hlen : (out.at n).sizes.length = shape.length := hq.lenS n
    have hli : (out.at n).sizes.length = li.length := by rw [h.room.len, h.rank]; omega
    have hlo : (out.at n).sizes.length = lo.length := by rw [h.roomOut.len, h.rank]; omega
    obtain ⟨d', g1, g2, g3⟩ := rescale_tile m wi 8 (-1) (o.rescaleParams pm1) (sz := (out.at n).sizes) (li := li) (lo := lo) (bi := bi) (bo := bo) (src := l)
      (dst := d) (by omega) (by omega) hli hlo (fun y hy => by rw [p3]; exact h.room.inb y (hq.local_ hy))
      (fun y hy => by rw [p4]; exact h.roomOut.inb y (hq.local_ hy)) (fun y z hy hz e => h.roomOut.inj y z (hq.local_ hy) (hq.local_ hz) e)
      (fun y => gin.buf.get (offset gin.strides (addPos y (out.at n).getPos))) (fun _ => inBias.get 0)
      (fun _ => scale.get 0) (fun _ => shift.get 0) (fun _ => outBias.get 0) p5
      ⟨fun y _ => one _ y, fun y _ => one _ y, fun y _ => one _ y, fun y _ => one _ y⟩
    refine ⟨pm1, d', if_pos rfl, by omega, fun _ => p2 rfl, ?_, g2, g3⟩
    show rescaleIssue m (wi / 8 : Nat) (1 : Nat) (-1) (o.rescaleParams pm1) l (tileT (out.at n).sizes li bi) (tileT (out.at n).sizes lo bo) d = _
    unfold rescaleIssue
    rcases hw with rfl | rfl
    · rw [if_pos (by decide), g1]; rfl
    · rw [if_neg (by decide), if_pos (by decide), g1]; rfl)
  refine ⟨enc', pm', o, s, val, e1, f1, ho, k1, k2, k3, fun x hxs => ?_⟩
  have e8 : 8 * (wi / 8) = wi := by omega
  obtain ⟨r, r1, r2⟩ := rescaleValue_spec m (wi := wi) (wo := 8) (by omega) (by omega) (shift.get 0) (hx x hxs)
    (by have := h1.2 0 (by omega); rwa [e8] at this) (h4.2 0 (by omega)) (h2.2 0 (by omega))
  simp only [Nat.cast_zero] at r1 r2
  rw [clamp_of_inRange (hd x hxs)] at r1
  exact ⟨r, r1, r2⟩

/-! ## PRELU -/

/-- The local buffer has room for the parameters of the largest tile. -/
theorem prelu_np {shape tiles : List Int} {skew : Int} (h : TilingOk shape tiles (List.range shape.length) skew) (hr : shape.length = 5)
    (a : Int) (li : List Int) (par : TIt) :
    maxParams true a (TIt.start (tileCfg shape tiles (List.range shape.length) skew) shape li) par = tiles.getD 4 0 := by
  have d4 := h.dims 4 (by simp; omega)
  have e4 : (List.range shape.length).getD 4 0 = 4 := by rw [hr]; rfl
  rw [e4, if_neg (by omega)] at d4
  have ht := d4.htile
  obtain ⟨_, _, -, -, -, -, -, -, y1, y2, -⟩ := tileDim_facts ((4 : Nat) : Int) d4
  have e : tileCfg shape tiles (List.range shape.length) skew = [tileDim (0 : Nat) (shape.getD 0 0) (tiles.getD 0 0) skew,
      tileDim (1 : Nat) (shape.getD 1 0) (tiles.getD 1 0) 0, tileDim (2 : Nat) (shape.getD 2 0) (tiles.getD 2 0) 0,
      tileDim (3 : Nat) (shape.getD 3 0) (tiles.getD 3 0) 0, tileDim (4 : Nat) (shape.getD 4 0) (tiles.getD 4 0) 0] := by
    rw [hr]; rfl
  rw [e]
  unfold maxParams
  rw [if_pos rfl]
  simp only [TIt.start, hr, List.map_cons, List.map_nil]
  rw [show 5 - 1 = 4 from rfl]
  simp only [List.getD_cons_succ, List.getD_cons_zero]
  rw [y1, y2, Int.sub_zero, Int.max_self, if_neg (by omega)]

/-- C72 for PRELU with one set of parameters for each channel (the last of five dimensions), input elements of 32 bits and output elements of 8 bits: with
the same steps each element `x` gives `round((x - b_in) * s / 2^k) + b_out`, limited to 8 bits, with the scale and shift for positive numbers if
`x ≥ b_in` and those for negative numbers else, all those of its channel.

Partial: `x - b_in` must be in the range of `int32_t`; other element sizes are not implemented and a single set of parameters is not laid out as the
kernel reads it (C71, see the violations). -/
theorem c72_prelu_tiled_partial (m : Rnd) (shape tiles : List Int) (skew : Int) (hr : shape.length = 5)
    (li lo : List Int) (bi bo pb : Int) (gin : Glob) (gos : List Int) (lin lout gout pm enc : Buf) (pc : List DimCfg) (ps pst : List Int)
    (h : MapOk shape tiles skew li lo bi bo gin gos lin lout gout) (bias pos neg posShift negShift asymm : Buf)
    (hn : bias.size = shape.getD 4 0 ∧ pos.size = shape.getD 4 0 ∧ neg.size = shape.getD 4 0 ∧ posShift.size = shape.getD 4 0 ∧
      negShift.size = shape.getD 4 0 ∧ asymm.size = shape.getD 4 0)
    (h1 : Fits 4 (shape.getD 4 0).toNat bias) (h2 : Fits 2 (shape.getD 4 0).toNat pos) (h3 : Fits 2 (shape.getD 4 0).toNat neg)
    (h4 : Fits 1 (shape.getD 4 0).toNat posShift) (h5 : Fits 1 (shape.getD 4 0).toNat negShift) (h6 : Fits 1 (shape.getD 4 0).toNat asymm)
    (he : preluEncodedSize (shape.getD 4 0) ≤ enc.size) (hpb : 0 ≤ pb) (hpm : pb + preluEncodedSize (tiles.getD 4 0) ≤ pm.size)
    (hx : ∀ x, InShape shape x → InRange 32 (gin.buf.get (offset gin.strides x)))
    (hd : ∀ x, InShape shape x → InRange 32 (gin.buf.get (offset gin.strides x) - bias.get (x.getD 4 0))) :
    let cfg := tileCfg shape tiles (List.range shape.length) skew
    let inp := TIt.start cfg shape li
    let out := TIt.start cfg shape lo
    let par := TIt.start pc ps pst
    ∃ enc' o s val, preluEncode bias pos neg posShift negShift asymm enc = some enc' ∧
      MapObj.new true 4 1 4 inp par out bi bo pb pm = some o ∧
      MapHost.run m gin enc' (shape.getD 4 0) gos (totalCount out.cfg).toNat ⟨o, lin, lout, pm, gout, .ok⟩ = some s ∧ s.status = .ok ∧
      Result shape gos val gout s.gout ∧
      ∀ x, InShape shape x →
        let v := gin.buf.get (offset gin.strides x)
        let ch := x.getD 4 0
        if bias.get ch ≤ v then Rescaled m 8 v (bias.get ch) (pos.get ch) (posShift.get ch) (asymm.get ch) (val x)
        else Rescaled m 8 v (bias.get ch) (neg.get ch) (negShift.get ch) (asymm.get ch) (val x) := by
  intro cfg inp out par
  have hT := h.tiling
  have hq := tileSeq_range hT h.rank lo
  have hn1 : 1 ≤ shape.getD 4 0 := by
    have := hq.box 0 4 (by omega)
    omega
  have eN : (((shape.getD 4 0).toNat : Nat) : Int) = shape.getD 4 0 := by omega
  obtain ⟨enc', e1, -, -, e4⟩ := c71_prelu (shape.getD 4 0).toNat bias pos neg posShift negShift asymm enc (by rw [eN]; exact hn) h1 h2 h3 h4 h5 h6
    (by rw [eN]; exact he)
  have hnp : maxParams true 4 inp par = tiles.getD 4 0 := prelu_np hT hr 4 li par
  let o : MapObj := { prelu := true, esi := 4, eso := 1, axis := 4, inp, par, out, np := maxParams true 4 inp par, pb
                      imm := ⟨Buf.ofList [], Buf.ofList [], Buf.ofList [], Buf.ofList []⟩
                      tin := tileT inp.sizes inp.strides bi, tout := tileT out.sizes out.strides bo }
  have ho : MapObj.new true 4 1 4 inp par out bi bo pb pm = some o := rfl
  have hnp' : o.np = tiles.getD 4 0 := hnp
  have hax : o.axis ≠ -1 := show (4 : Int) ≠ -1 by decide
  let val : List Int → Int := fun x =>
    if gin.buf.get (offset gin.strides x) - bias.get (x.getD 4 0) ≥ 0 then
      rescaleValue m 32 8 (gin.buf.get (offset gin.strides x)) (bias.get (x.getD 4 0)) (asymm.get (x.getD 4 0)) (pos.get (x.getD 4 0)) (posShift.get (x.getD 4 0))
    else rescaleValue m 32 8 (gin.buf.get (offset gin.strides x)) (bias.get (x.getD 4 0)) (asymm.get (x.getD 4 0)) (neg.get (x.getD 4 0)) (negShift.get (x.getD 4 0))
  obtain ⟨s, k1, k2, k3⟩ := map_run (m := m) h o rfl rfl rfl rfl rfl enc' (shape.getD 4 0) val pm (by
    intro n pm' l d p1 p2 p3 p4 p5
    have hlen : (out.at n).sizes.length = 5 := by rw [← hr]; exact hq.lenS n
    have hplen : (out.at n).getPos.length = 5 := by rw [← hr]; exact hq.lenP n
    obtain ⟨x1, x2, x3, x4⟩ := hq.box n 4 (by omega)
    have x1' : 0 ≤ (out.at n).getPos.getD 4 0 := x1
    have x2' : 1 ≤ (out.at n).sizes.getD 4 0 := x2
    have x3' : (out.at n).sizes.getD 4 0 ≤ tiles.getD 4 0 := x3
    have x4' : (out.at n).getPos.getD 4 0 + (out.at n).sizes.getD 4 0 ≤ shape.getD 4 0 := x4
    have eo : (((out.at n).getPos.getD 4 0).toNat : Int) = (out.at n).getPos.getD 4 0 := by omega
    have ec : (((out.at n).sizes.getD 4 0).toNat : Int) = (out.at n).sizes.getD 4 0 := by omega
    obtain ⟨pm'', f1, f2, f3, f4, f5, f6, f7, f8⟩ := e4 ((out.at n).getPos.getD 4 0).toNat ((out.at n).sizes.getD 4 0).toNat (tiles.getD 4 0) pb pm'
      (by omega) (by omega) hpb (by rw [p1]; exact hpm)
    rw [eN, eo, ec] at f1
    have hli : (out.at n).sizes.length = li.length := by rw [h.room.len, h.rank]; omega
    have hlo : (out.at n).sizes.length = lo.length := by rw [h.roomOut.len, h.rank]; omega
    have rd : ∀ {sz : Nat} {p : Int} {src : Buf}, Delivers sz p pm'' src ((out.at n).getPos.getD 4 0).toNat ((out.at n).sizes.getD 4 0).toNat →
        ∀ y, InShape (out.at n).sizes y → (typed sz p pm'').rd (paramIdx (4 : Nat) y) = some (src.get ((addPos y (out.at n).getPos).getD 4 0)) :=
      fun hdl y hy => delivers_rd hdl hy (by omega) (by omega) ec.symm eo.symm
    obtain ⟨d', g1, g2, g3⟩ := prelu_tile m 8 (4 : Nat) (o.preluParams pm'') (sz := (out.at n).sizes) (li := li) (lo := lo) (bi := bi) (bo := bo) (src := l)
      (dst := d) hli hlo (fun y hy => by rw [p3]; exact h.room.inb y (hq.local_ hy))
      (fun y hy => by rw [p4]; exact h.roomOut.inb y (hq.local_ hy)) (fun y z hy hz e => h.roomOut.inj y z (hq.local_ hy) (hq.local_ hz) e)
      (fun y => gin.buf.get (offset gin.strides (addPos y (out.at n).getPos))) (fun y => bias.get ((addPos y (out.at n).getPos).getD 4 0))
      (fun y => pos.get ((addPos y (out.at n).getPos).getD 4 0)) (fun y => neg.get ((addPos y (out.at n).getPos).getD 4 0))
      (fun y => posShift.get ((addPos y (out.at n).getPos).getD 4 0)) (fun y => negShift.get ((addPos y (out.at n).getPos).getD 4 0))
      (fun y => asymm.get ((addPos y (out.at n).getPos).getD 4 0)) p5 (by
        unfold MapObj.preluParams
        simp only
        rw [hnp']
        exact ⟨rd f3, rd f4, rd f5, rd f6, rd f7, rd f8⟩) (fun y hy => hd _ (hq.global hy))
    refine ⟨pm'', d', ?_, by omega, fun c => absurd c hax, ?_, g2, g3⟩
    · rw [if_neg hax]
      show fetchParams (shape.getD 4 0) ((out.at n).getPos.getD 4 0) ((tileT (out.at n).sizes li bi).shape.getD 4 0) pb enc'
        [4, 2, 2, 1, 1, 1] (preluOffsets o.np) 0 pm' = _
      rw [hnp', tileT_shape hli]
      exact f1
    · show (krnPrelu m 8 ((4 : Nat) : Int) (o.preluParams pm'') l (tileT (out.at n).sizes li bi) (tileT (out.at n).sizes lo bo) d).map _ = _
      rw [g1]; rfl)
  refine ⟨enc', o, s, val, e1, ho, k1, k2, k3, fun x hxs => ?_⟩
  have hxa := inShape_getD hxs (show 4 < shape.length by omega)
  have cast : ((x.getD 4 0).toNat : Int) = x.getD 4 0 := by omega
  have f : ∀ {sz : Nat} {src : Buf}, Fits sz (shape.getD 4 0).toNat src → InRange (8 * sz) (src.get (x.getD 4 0)) := fun hf => by
    have := hf.2 (x.getD 4 0).toNat (by omega)
    rwa [cast] at this
  intro v ch
  have sp : ∀ (s k : Int), InRange 16 s → Rescaled m 8 v (bias.get ch) s k (asymm.get ch) (rescaleValue m 32 8 v (bias.get ch) (asymm.get ch) s k) := by
    intro s k hs
    obtain ⟨r, r1, r2⟩ := rescaleValue_spec m (wi := 32) (wo := 8) (by omega) (by omega) k (hx x hxs) (f h1) (f h6) hs
    rw [clamp_of_inRange (hd x hxs)] at r1
    exact ⟨r, r1, r2⟩
  by_cases hb : bias.get ch ≤ v
  · rw [if_pos hb]
    have e : val x = rescaleValue m 32 8 v (bias.get ch) (asymm.get ch) (pos.get ch) (posShift.get ch) := if_pos (by
      show v - bias.get ch ≥ 0
      omega)
    rw [e]
    exact sp _ _ (f h2)
  · rw [if_neg hb]
    have e : val x = rescaleValue m 32 8 v (bias.get ch) (asymm.get ch) (neg.get ch) (negShift.get ch) := if_neg (by
      show ¬ v - bias.get ch ≥ 0
      omega)
    rw [e]
    exact sp _ _ (f h3)

/-- The calls of both kernels have no status other than OK. -/
theorem c72_status (m : Rnd) (o : MapObj) (pm src dst dst' : Buf) (st : Status) (h : o.issue m pm src dst = some (st, dst')) : st = .ok := by
  unfold MapObj.issue preluIssue rescaleIssue at h
  split at h
  · split at h
    · simp only [Option.map_eq_some_iff, Prod.mk.injEq] at h
      obtain ⟨_, _, h, _⟩ := h
      exact h.symm
    · simp only [Option.some.injEq, Prod.mk.injEq] at h
      exact h.1.symm
  · split at h
    · simp only [Option.map_eq_some_iff, Prod.mk.injEq] at h
      obtain ⟨_, _, h, _⟩ := h
      exact h.symm
    · split at h
      · simp only [Option.map_eq_some_iff, Prod.mk.injEq] at h
        obtain ⟨_, _, h, _⟩ := h
        exact h.symm
      · split at h
        · simp only [Option.some.injEq, Prod.mk.injEq] at h
          exact h.1.symm
        · exact absurd h (by simp)

/-! ### Cases: tiles of two channels, the last tile has one -/

def exMapIn : Glob := ⟨Buf.ofList [100, 200, 300, -100, -200, 1000], [6, 3, 3, 1]⟩

def exMapOut : Buf := Buf.ofList [0, 0, 0, 0, 0, 0, 77]

theorem exMapTiling : TilingOk [1, 2, 1, 3] [1, 1, 1, 2] (List.range 4) 0 := by
  refine ⟨rfl, by decide, by decide, by decide, ?_⟩
  intro i hi
  have : i = 0 ∨ i = 1 ∨ i = 2 ∨ i = 3 := by simp at hi; omega
  rcases this with rfl | rfl | rfl | rfl <;> exact ⟨by decide, by decide, by decide⟩

theorem exMapRoom : Room [1, 1, 1, 2] [2, 2, 2, 1] 1 3 :=
  ⟨rfl, allIn (by decide), fun y z hy hz =>
    allIn (P := fun y => ∀ z ∈ rowMajor [1, 1, 1, 2], offset [2, 2, 2, 1] y = offset [2, 2, 2, 1] z → y = z) (by decide) y hy z (mem_rowMajor.mpr hz)⟩

theorem exMap : MapOk [1, 2, 1, 3] [1, 1, 1, 2] 0 [2, 2, 2, 1] [2, 2, 2, 1] 1 1 exMapIn [6, 3, 3, 1] (Buf.ofList [9, 0, 0]) (Buf.ofList [9, 0, 0]) exMapOut where
  tiling := exMapTiling
  rank := rfl
  room := exMapRoom
  roomOut := exMapRoom
  glob := allIn (by decide)
  gin := allIn (by decide)
  ginj := fun x y hx hy => allIn (P := fun x => ∀ y ∈ rowMajor [1, 2, 1, 3], offset [6, 3, 3, 1] x = offset [6, 3, 3, 1] y → x = y) (by decide) x hx y
    (mem_rowMajor.mpr hy)

def exZeros (n : Nat) : Buf := Buf.ofList (List.replicate n 0)

/-- The hypotheses of the theorem hold for this case with different parameters for the three channels. -/
example : ∃ enc' o s, ∃ val : List Int → Int, rescaleEncode 3 4 1 (Buf.ofList [0, 10, 20]) (Buf.ofList [1, 2, 3]) (Buf.ofList [1, 2, 3]) (Buf.ofList [0, 1, 2]) (exZeros 24) = some enc' ∧
    MapObj.new false 4 1 3 (TIt.start (tileCfg [1, 2, 1, 3] [1, 1, 1, 2] (List.range 4) 0) [1, 2, 1, 3] [2, 2, 2, 1])
      (parIt (tileCfg [1, 2, 1, 3] [1, 1, 1, 2] (List.range 4) 0) 3 3) (TIt.start (tileCfg [1, 2, 1, 3] [1, 1, 1, 2] (List.range 4) 0) [1, 2, 1, 3] [2, 2, 2, 1])
      1 1 2 (exZeros 18) = some o ∧
    MapHost.run .up exMapIn enc' 3 [6, 3, 3, 1] 4 ⟨o, Buf.ofList [9, 0, 0], Buf.ofList [9, 0, 0], exZeros 18, exMapOut, .ok⟩ = some s ∧
    s.gout.get 5 = val [0, 1, 0, 2] ∧ Rescaled .up 8 1000 20 3 3 2 (val [0, 1, 0, 2]) ∧ s.gout.get 6 = 77 := by
  obtain ⟨enc', o, s, val, h1, h2, h3, -, h4, h5⟩ := c72_rescale_tiled_partial .up (wi := 32) (Or.inl rfl) [1, 2, 1, 3] [1, 1, 1, 2] 0 rfl 3 (by decide)
    [2, 2, 2, 1] [2, 2, 2, 1] 1 1 2 exMapIn [6, 3, 3, 1] (Buf.ofList [9, 0, 0]) (Buf.ofList [9, 0, 0]) exMapOut (exZeros 18) (exZeros 24) exMap
    (Buf.ofList [0, 10, 20]) (Buf.ofList [1, 2, 3]) (Buf.ofList [1, 2, 3]) (Buf.ofList [0, 1, 2]) (by unfold Fits; decide) (by unfold Fits; decide)
    (by unfold Fits; decide) (by unfold Fits; decide) (by decide) (by decide) (by decide) (allIn (by decide)) (allIn (by decide))
  exact ⟨enc', o, s, val, h1, h2, h3, h4.elem [0, 1, 0, 2] (by decide), h5 [0, 1, 0, 2] (by decide),
    h4.frame 6 (allIn (P := fun x => offset [6, 3, 3, 1] x ≠ 6) (by decide))⟩

/-- The run of the case, as computed by the model. -/
example : ((rescaleEncode 3 4 1 (Buf.ofList [0, 10, 20]) (Buf.ofList [1, 2, 3]) (Buf.ofList [1, 2, 3]) (Buf.ofList [0, 1, 2]) (exZeros 24)).bind fun enc =>
    let cfg := tileCfg [1, 2, 1, 3] [1, 1, 1, 2] (List.range 4) 0
    let it := TIt.start cfg [1, 2, 1, 3] [2, 2, 2, 1]
    (MapObj.new false 4 1 3 it (parIt cfg 3 3) it 1 1 2 (exZeros 18)).bind fun o =>
    (MapHost.run .up exMapIn enc 3 [6, 3, 3, 1] 4 ⟨o, Buf.ofList [9, 0, 0], Buf.ofList [9, 0, 0], exZeros 18, exMapOut, .ok⟩).map fun s =>
      (s.status, s.gout.toList)) = some (.ok, [50, 96, 107, -50, -104, 127, 77]) := by decide +kernel

/-- One set of parameters. -/
example : ∃ enc' pm' o s, ∃ val : List Int → Int,
    rescaleEncode 1 4 1 (Buf.ofList [10]) (Buf.ofList [3]) (Buf.ofList [2]) (Buf.ofList [1]) (exZeros 8) = some enc' ∧
    fetchParams 1 0 1 2 enc' [4, 2, 1, 1] (rescaleOffsets 1 4) 0 (exZeros 10) = some pm' ∧
    MapObj.new false 4 1 (-1) (TIt.start (tileCfg [1, 2, 1, 3] [1, 1, 1, 2] (List.range 4) 0) [1, 2, 1, 3] [2, 2, 2, 1])
      (TIt.start [] [] []) (TIt.start (tileCfg [1, 2, 1, 3] [1, 1, 1, 2] (List.range 4) 0) [1, 2, 1, 3] [2, 2, 2, 1]) 1 1 2 pm' = some o ∧
    MapHost.run .up exMapIn enc' 1 [6, 3, 3, 1] 4 ⟨o, Buf.ofList [9, 0, 0], Buf.ofList [9, 0, 0], pm', exMapOut, .ok⟩ = some s ∧
    s.gout.get 0 = val [0, 0, 0, 0] ∧ Rescaled .up 8 100 10 3 2 1 (val [0, 0, 0, 0]) := by
  obtain ⟨enc', pm', o, s, val, h1, h2, h3, h4, -, h5, h6⟩ := c72_rescale_tensor_tiled_partial .up (wi := 32) (Or.inl rfl) [1, 2, 1, 3] [1, 1, 1, 2] 0
    (by decide) [2, 2, 2, 1] [2, 2, 2, 1] 1 1 2 exMapIn [6, 3, 3, 1] (Buf.ofList [9, 0, 0]) (Buf.ofList [9, 0, 0]) exMapOut (exZeros 10) (exZeros 8)
    [] [] [] 1 ((rescaleEncode 1 4 1 (Buf.ofList [10]) (Buf.ofList [3]) (Buf.ofList [2]) (Buf.ofList [1]) (exZeros 8)).getD (exZeros 0)) exMap
    (Buf.ofList [10]) (Buf.ofList [3]) (Buf.ofList [2]) (Buf.ofList [1]) (by unfold Fits; decide) (by unfold Fits; decide)
    (by unfold Fits; decide) (by unfold Fits; decide) (by decide) (by decide) (by decide) (allIn (by decide)) (allIn (by decide))
  have h1' : rescaleEncode 1 4 1 (Buf.ofList [10]) (Buf.ofList [3]) (Buf.ofList [2]) (Buf.ofList [1]) (exZeros 8) = some enc' := h1
  rw [h1'] at h4
  exact ⟨enc', pm', o, s, val, h1, h2, h3, h4, h5.elem [0, 0, 0, 0] (by decide), h6 [0, 0, 0, 0] (by decide)⟩

theorem exPreluTiling : TilingOk [1, 1, 2, 1, 3] [1, 1, 1, 1, 2] (List.range 5) 0 := by
  refine ⟨rfl, by decide, by decide, by decide, ?_⟩
  intro i hi
  have : i = 0 ∨ i = 1 ∨ i = 2 ∨ i = 3 ∨ i = 4 := by simp at hi; omega
  rcases this with rfl | rfl | rfl | rfl | rfl <;> exact ⟨by decide, by decide, by decide⟩

theorem exPreluRoom : Room [1, 1, 1, 1, 2] [2, 2, 2, 2, 1] 1 3 :=
  ⟨rfl, allIn (by decide), fun y z hy hz =>
    allIn (P := fun y => ∀ z ∈ rowMajor [1, 1, 1, 1, 2], offset [2, 2, 2, 2, 1] y = offset [2, 2, 2, 2, 1] z → y = z) (by decide) y hy z (mem_rowMajor.mpr hz)⟩

def exPreluIn : Glob := ⟨exMapIn.buf, [6, 6, 3, 3, 1]⟩

theorem exPrelu : MapOk [1, 1, 2, 1, 3] [1, 1, 1, 1, 2] 0 [2, 2, 2, 2, 1] [2, 2, 2, 2, 1] 1 1 exPreluIn [6, 6, 3, 3, 1] (Buf.ofList [9, 0, 0])
    (Buf.ofList [9, 0, 0]) exMapOut where
  tiling := exPreluTiling
  rank := rfl
  room := exPreluRoom
  roomOut := exPreluRoom
  glob := allIn (by decide)
  gin := allIn (by decide)
  ginj := fun x y hx hy => allIn (P := fun x => ∀ y ∈ rowMajor [1, 1, 2, 1, 3], offset [6, 6, 3, 3, 1] x = offset [6, 6, 3, 3, 1] y → x = y) (by decide) x hx y
    (mem_rowMajor.mpr hy)

/-- PRELU with different parameters for the three channels: a negative and a positive difference. -/
example : ∃ enc' o s, ∃ val : List Int → Int,
    preluEncode (Buf.ofList [0, 10, 20]) (Buf.ofList [1, 2, 3]) (Buf.ofList [1, 1, 1]) (Buf.ofList [1, 2, 3]) (Buf.ofList [4, 5, 6]) (Buf.ofList [0, 1, 2])
      (exZeros 33) = some enc' ∧
    MapObj.new true 4 1 4 (TIt.start (tileCfg [1, 1, 2, 1, 3] [1, 1, 1, 1, 2] (List.range 5) 0) [1, 1, 2, 1, 3] [2, 2, 2, 2, 1]) (TIt.start [] [] [])
      (TIt.start (tileCfg [1, 1, 2, 1, 3] [1, 1, 1, 1, 2] (List.range 5) 0) [1, 1, 2, 1, 3] [2, 2, 2, 2, 1]) 1 1 2 (exZeros 24) = some o ∧
    MapHost.run .up exPreluIn enc' 3 [6, 6, 3, 3, 1] 4 ⟨o, Buf.ofList [9, 0, 0], Buf.ofList [9, 0, 0], exZeros 24, exMapOut, .ok⟩ = some s ∧
    s.gout.get 4 = val [0, 0, 1, 0, 1] ∧ Rescaled .up 8 (-200) 10 1 5 1 (val [0, 0, 1, 0, 1]) ∧
    s.gout.get 5 = val [0, 0, 1, 0, 2] ∧ Rescaled .up 8 1000 20 3 3 2 (val [0, 0, 1, 0, 2]) := by
  obtain ⟨enc', o, s, val, h1, h2, h3, -, h4, h5⟩ := c72_prelu_tiled_partial .up [1, 1, 2, 1, 3] [1, 1, 1, 1, 2] 0 rfl
    [2, 2, 2, 2, 1] [2, 2, 2, 2, 1] 1 1 2 exPreluIn [6, 6, 3, 3, 1] (Buf.ofList [9, 0, 0]) (Buf.ofList [9, 0, 0]) exMapOut (exZeros 24) (exZeros 33) [] [] []
    exPrelu (Buf.ofList [0, 10, 20]) (Buf.ofList [1, 2, 3]) (Buf.ofList [1, 1, 1]) (Buf.ofList [1, 2, 3]) (Buf.ofList [4, 5, 6]) (Buf.ofList [0, 1, 2])
    (by decide) (by unfold Fits; decide) (by unfold Fits; decide) (by unfold Fits; decide) (by unfold Fits; decide) (by unfold Fits; decide)
    (by unfold Fits; decide) (by decide) (by decide) (by decide) (allIn (by decide)) (allIn (by decide))
  exact ⟨enc', o, s, val, h1, h2, h3, h4.elem [0, 0, 1, 0, 1] (by decide), h5 [0, 0, 1, 0, 1] (by decide), h4.elem [0, 0, 1, 0, 2] (by decide),
    h5 [0, 0, 1, 0, 2] (by decide)⟩

/-- The run of the case, as computed by the model. -/
example : ((preluEncode (Buf.ofList [0, 10, 20]) (Buf.ofList [1, 2, 3]) (Buf.ofList [1, 1, 1]) (Buf.ofList [1, 2, 3]) (Buf.ofList [4, 5, 6])
      (Buf.ofList [0, 1, 2]) (exZeros 33)).bind fun enc =>
    let it := TIt.start (tileCfg [1, 1, 2, 1, 3] [1, 1, 1, 1, 2] (List.range 5) 0) [1, 1, 2, 1, 3] [2, 2, 2, 2, 1]
    (MapObj.new true 4 1 4 it it it 1 1 2 (exZeros 24)).bind fun o =>
    (MapHost.run .up exPreluIn enc 3 [6, 6, 3, 3, 1] 4 ⟨o, Buf.ofList [9, 0, 0], Buf.ofList [9, 0, 0], exZeros 24, exMapOut, .ok⟩).map fun s =>
      (s.status, s.gout.toList)) = some (.ok, [50, 96, 107, -6, -6, 127, 77]) := by decide +kernel

/-! ### Violations -/

/-- **Violation**: for all element sizes other than 32 bits to 8 bits, PRELU reports success and writes nothing. -/
theorem c72_prelu_sizes_violated (m : Rnd) (o : MapObj) (pm src dst : Buf) (ho : o.prelu = true) (hs : o.esi ≠ 4 ∨ o.eso ≠ 1) :
    o.issue m pm src dst = some (.ok, dst) := by
  unfold MapObj.issue preluIssue
  rw [if_pos ho, if_neg (by omega)]

def exBytes : MapObj where
  prelu := true
  esi := 1
  eso := 1
  axis := 4
  inp := TIt.start [] [] []
  par := TIt.start [] [] []
  out := TIt.start [] [] []
  tin := tileT [1] [1] 0
  tout := tileT [1] [1] 0
  np := 1
  pb := 0
  imm := ⟨exZeros 1, exZeros 1, exZeros 1, exZeros 1⟩

example (m : Rnd) : exBytes.issue m (exZeros 11) (Buf.ofList [5]) (Buf.ofList [77]) = some (.ok, Buf.ofList [77]) :=
  c72_prelu_sizes_violated m _ _ _ _ rfl (by decide)

/-- **Violation**: a single set of RESCALE parameters is read when the kernel is created.  Here the caller's copy of the scale 3 comes after this, and the
kernel uses the 0 that was there before: the result is 0 in place of 3 * 100. -/
theorem c72_captured_violated :
    let it := TIt.start (tileCfg [1, 1, 1, 1] [1, 1, 1, 1] (List.range 4) 0) [1, 1, 1, 1] [1, 1, 1, 1]
    ((rescaleEncode 1 1 1 (Buf.ofList [0]) (Buf.ofList [3]) (Buf.ofList [0]) (Buf.ofList [0]) (exZeros 5)).bind fun enc =>
      (MapObj.new false 1 1 (-1) it it it 0 0 0 (exZeros 5)).bind fun o =>
      (fetchParams 1 0 1 0 enc [1, 2, 1, 1] (rescaleOffsets 1 1) 0 (exZeros 5)).bind fun pm =>
      (MapHost.run .up ⟨Buf.ofList [20], [1, 1, 1, 1]⟩ enc 1 [1, 1, 1, 1] 1 ⟨o, exZeros 1, exZeros 1, pm, Buf.ofList [77], .ok⟩).map fun s =>
        (s.status, s.gout.toList)) = some (.ok, [0]) := by decide +kernel

/-- **Violation**: PRELU computes `x - b_in` in `int32_t` without a check; for `x = -2^31` and `b_in = 1` it overflows. -/
theorem c72_prelu_overflow_violated (m : Rnd) : preluAt m 8 ⟨Buf.ofList [1], Buf.ofList [1], Buf.ofList [1], Buf.ofList [0], Buf.ofList [0], Buf.ofList [0]⟩ 0
    (-2147483648) = none := by
  cases m <;> decide

end Mli.Rt
