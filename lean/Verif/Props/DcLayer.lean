import Verif.Lemmas.DcLayer
import Verif.Props.LayerRuntime
import Verif.Props.TransposeTiles

/-! # C95: a layer of run-time kernels with a transposed convolution -/

namespace Mli.Rt

open Mli Mli.Iter Mli.Spec

/-- The tiles of 8-bit results: the output of RESCALE at `bm` and the output of CLIP at `bc`, both laid out like the output tile of the convolution.  They may be
the same but must not overlap otherwise. -/
structure DcLayerRoom (R : DcRun) (bm bc : Int) (mid : Buf) : Prop where
  place : Place R.otiles R.lo bm mid.size
  last : Place R.otiles R.lo bc mid.size
  apart : ∀ y z, InShape R.otiles y → InShape R.otiles z → bm + offset R.lo y = bc + offset R.lo z → y = z

theorem DcOk.sizes4 {R : DcRun} (h : DcOk R) (n : Nat) : ((dropGroup R.out).at n).sizes.length = 4 := by
  obtain ⟨b, oy, osy, iy, isy, pt, ox, osx, ix, isx, pl, k0, kn, C⟩ := h.cell n
  rw [(h.at4 C).1]
  rfl

/-- Different elements of a tile without the group are at different places. -/
theorem DcOk.sep4 {R : DcRun} (h : DcOk R) {n : Nat} (hn : n < R.rounds) {b oy osy iy isy pt ox osx ix isx pl k0 kn : Int}
    (C : DcCell R n b oy osy iy isy pt ox osx ix isx pl k0 kn) {p q : Int}
    (hj : ∀ y z, InShape R.otiles y → InShape R.otiles z → p + offset R.lo y = q + offset R.lo z → y = z) {y z : List Int}
    (hy : InShape [1, osy, osx, kn] y) (hz : InShape [1, osy, osx, kn] z) (e : p + offset R.lo4 y = q + offset R.lo4 z) : y = z := by
  obtain ⟨r, s, k, rfl, -, h5⟩ := tile4 hy
  obtain ⟨r', s', k', rfl, -, h5'⟩ := tile4 hz
  rw [h.off4, h.off4] at e
  have := hj _ _ (h.cell_in hn C h5).1 (h.cell_in hn C h5').1 e
  simp only [List.cons.injEq, and_true, true_and] at this
  rw [this.1, this.2.1, this.2.2]

/-- All elements of a tile without the group are in the buffer. -/
theorem DcOk.inb4 {R : DcRun} (h : DcOk R) {n : Nat} (hn : n < R.rounds) {b oy osy iy isy pt ox osx ix isx pl k0 kn : Int}
    (C : DcCell R n b oy osy iy isy pt ox osx ix isx pl k0 kn) {p size : Int} (hp : Place R.otiles R.lo p size) {y : List Int}
    (hy : InShape [1, osy, osx, kn] y) : 0 ≤ p + offset R.lo4 y ∧ p + offset R.lo4 y < size := by
  obtain ⟨r, s, k, rfl, -, h5⟩ := tile4 hy
  rw [h.off4]
  exact hp.inb _ (h.cell_in hn C h5).1

theorem dc_clip_stage {R : DcRun} (h : DcOk R) {bm bc pc : Int} {mid cp : Buf} {l : Int × Int} (room : DcLayerRoom R bm bc mid)
    (hl : clipParams 1 pc cp = some l) (n : Nat) (b oy osy iy isy pt ox osx ix isx pl k0 kn : Int) (hn : n < R.rounds)
    (C : DcCell R n b oy osy iy isy pt ox osx ix isx pl k0 kn) (d : Buf) (hd : d.size = mid.size) (mval : Int → Int → Int → Int → Int)
    (hm : DcTileHolds R d bm b oy osy ox osx k0 kn mval) :
    ∃ d', ((ClipObj.new 1 (dropGroup R.out) (dropGroup R.out) bm bc pc).at n).issue cp d = some (.ok, d') ∧ d'.size = d.size ∧
      DcTileHolds R d' bc b oy osy ox osx k0 kn (fun b y x k => min (max (mval b y x k) l.1) l.2) := by
  have z4 := (h.at4 C).1
  have l4 := h.lo4_len
  have st : (dropGroup R.out).strides = R.lo4 := rfl
  obtain ⟨d', c1, c2, c3⟩ := clip_tile l.1 l.2 (sz := [1, osy, osx, kn]) (li := R.lo4) (lo := R.lo4) (bi := bm) (bo := bc) (mem := d) (by simp)
    (by simp [l4]) (by simp [l4])
    (fun y hy => by rw [hd]; exact h.inb4 hn C room.place hy)
    (fun y hy => by rw [hd]; exact h.inb4 hn C room.last hy)
    (fun y z hy hz e => h.sep4 hn C (p := 0) (q := 0) (fun y z hy hz e => room.last.inj y z hy hz (by omega)) hy hz (by omega))
    (fun y z hy hz e => h.sep4 hn C room.apart hy hz e)
  refine ⟨d', ?_, c2, ?_⟩
  · show (clipParams 1 pc cp).bind (fun p => clipIssue 1 1 p.1 p.2 (tileT ((dropGroup R.out).at n).sizes (dropGroup R.out).strides bm)
      (tileT ((dropGroup R.out).at n).sizes (dropGroup R.out).strides bc) d) = _
    rw [hl, Option.bind_some, z4, st]
    unfold clipIssue
    rw [if_pos ⟨rfl, rfl⟩, c1]
    rfl
  · intro r s k hy
    obtain ⟨y1, y2, y3, -⟩ := hy
    have := c3 [0, r, s, k] ⟨⟨by omega, by omega⟩, y1, y2, y3, trivial⟩
    rw [h.off4, hm r s k ⟨y1, y2, y3, trivial⟩] at this
    exact this

/-- C95: encode the parameters of the output channels, create a `TransposeConv2D`, a RESCALE on its output tile and a CLIP on the output tile of RESCALE, and go
through all tiles.  In each round the caller copies the tiles of input, weights and zero points and the parameters of the channels of the tile, runs the
kernels one after the other in local memory, and copies the last tile to the output tensor.  This ends with status OK.  Every element of the output tensor is
`round((sum - b_in) * s / 2^k) + b_out`, limited to 8 bits and then to the limits of CLIP, where `sum` is what C78 says, and the parameters are the user's
parameters of its channel.  Nothing else in the output buffer changes.

Partial: the conditions of C78 (`DcOk`), and `sum - b_in` must be a number of 32 bits (else it is limited to this range first, see C41). -/
theorem c95_transpose_layer_partial (m : Rnd) (R : DcRun) (h : DcOk R) (hg : R.gos.length = 5) (bm bc pb pc : Int) (mid pm cp enc : Buf)
    (l : Int × Int) (room : DcLayerRoom R bm bc mid) (hl : clipParams 1 pc cp = some l) (inBias scale shift outBias : Buf)
    (h1 : Fits 4 R.oc.toNat inBias) (h2 : Fits 2 R.oc.toNat scale) (h3 : Fits 1 R.oc.toNat shift) (h4 : Fits 1 R.oc.toNat outBias)
    (he : rescaleEncodedSize R.oc 4 1 ≤ enc.size) (hpb : 0 ≤ pb) (hpm : pb + rescaleEncodedSize R.t4 4 1 ≤ pm.size)
    (hd : ∀ b y x k, InShape R.oshape [b, y, x, 0, k] → InRange 32 (R.value b y x k - inBias.get k)) :
    ∃ enc' o s val, rescaleEncode R.oc.toNat 4 1 inBias scale shift outBias enc = some enc' ∧
      MapObj.new false 4 1 3 (dropGroup R.out) (parIt (dropGroup R.out).cfg R.oc 3) (dropGroup R.out) R.bo bm pb pm = some o ∧
      DcLayerHost.run m R.gin R.gw R.gz enc' R.oc (R.gos.eraseIdx 3) R.rounds
        (R.layer o (ClipObj.new 1 (dropGroup R.out) (dropGroup R.out) bm bc pc) mid pm cp) = some s ∧ s.status = .ok ∧
      Result R.oshape R.gos val R.gout s.gout ∧
      ∀ b y x k, InShape R.oshape [b, y, x, 0, k] →
        ∃ v, Rescaled m 8 (R.value b y x k) (inBias.get k) (scale.get k) (shift.get k) (outBias.get k) v ∧ val [b, y, x, 0, k] = min (max v l.1) l.2 := by
  have hch := h.chans
  have eN : ((R.oc.toNat : Nat) : Int) = R.oc := by omega
  obtain ⟨enc', e1, -, -, e4⟩ := c71_rescale R.oc.toNat 4 1 inBias scale shift outBias enc (by omega) h1 h2 h3 h4 (by rw [eN]; exact he)
  have sizes4 := h.sizes4
  have at4 : ∀ {n : Nat} {b oy osy iy isy pt ox osx ix isx pl k0 kn : Int}, DcCell R n b oy osy iy isy pt ox osx ix isx pl k0 kn → _ := fun C => h.at4 C
  have hnp : maxParams false 3 (dropGroup R.out) (parIt (dropGroup R.out).cfg R.oc 3) = R.t4 := by
    obtain ⟨b, oy, osy, iy, isy, pt, ox, osx, ix, isx, pl, k0, kn, C⟩ := h.cell 0
    exact (h.at4 C).2.2
  have l4 : (dropGroup R.out).strides.length = 4 := h.lo4_len
  have st : (dropGroup R.out).strides = R.lo4 := rfl
  have t0 : (dropGroup R.out).at 0 = dropGroup R.out := rfl
  have hcl := fun n b oy osy iy isy pt ox osx ix isx pl k0 kn hn C d hds mval hm =>
    dc_clip_stage (bm := bm) h room hl n b oy osy iy isy pt ox osx ix isx pl k0 kn hn C d hds mval hm
  generalize dropGroup R.out = t at *
  let o : MapObj := { prelu := false, esi := 4, eso := 1, axis := 3, inp := t, par := parIt t.cfg R.oc 3, out := t
                      np := maxParams false 3 t (parIt t.cfg R.oc 3), pb
                      imm := ⟨Buf.ofList [], Buf.ofList [], Buf.ofList [], Buf.ofList []⟩
                      tin := tileT t.sizes t.strides R.bo, tout := tileT t.sizes t.strides bm }
  have ho : MapObj.new false 4 1 3 t (parIt t.cfg R.oc 3) t R.bo bm pb pm = some o := rfl
  have o0 : o = o.at 0 := by
    unfold MapObj.at
    simp only [o]
    rw [t0]
    rfl
  have hnp : o.np = R.t4 := hnp
  have hax : o.axis ≠ -1 := show (3 : Int) ≠ -1 by decide
  let mval : Int → Int → Int → Int → Int := fun b y x k => rescaleValue m 32 8 (R.value b y x k) (inBias.get k) (outBias.get k) (scale.get k) (shift.get k)
  obtain ⟨s, k1, k2, k3⟩ := dc_layer_run h hg m o (ClipObj.new 1 t t bm bc pc) mid pm cp enc' R.oc bm bc o0
    (map_update (fun n => (sizes4 n).trans l4.symm) (fun n => (sizes4 n).trans l4.symm)) (by
      unfold ClipObj.at ClipObj.new
      simp only
      rw [t0]
      rfl) (by
      intro n
      have h1 := sizes4 n
      have h2 := sizes4 (n + 1)
      unfold ClipObj.update ClipObj.at ClipObj.new
      simp only [TIt.at_next]
      rw [tileT_setShape (by omega) (by omega), tileT_setShape (by omega) (by omega)]) rfl room.last mval (fun v => min (max v l.1) l.2) (by
    intro n b oy osy iy isy pt ox osx ix isx pl k0 kn hn C pm' l d p1 p3 p4 p5
    obtain ⟨q2, q3, -⟩ := at4 C
    obtain ⟨x1, x2, x3, x4⟩ := C.hk
    have eo : ((k0.toNat : Nat) : Int) = k0 := by omega
    have ec : ((kn.toNat : Nat) : Int) = kn := by omega
    obtain ⟨pm'', f1, f2, f3, f4, f5, f6⟩ := e4 k0.toNat kn.toNat R.t4 pb pm' (by omega) (by omega) hpb (by rw [p1]; exact hpm)
    rw [eN, eo, ec] at f1
    have rd : ∀ {sz : Nat} {p : Int} {src : Buf}, Delivers sz p pm'' src k0.toNat kn.toNat →
        ∀ y, InShape [1, osy, osx, kn] y → (typed sz p pm'').rd (paramIdx (3 : Nat) y) = some (src.get ((addPos y [b, oy, ox, k0]).getD 3 0)) :=
      fun hdl y hy => delivers_rd (a := 3) hdl hy rfl (by simp) ec.symm eo.symm
    obtain ⟨d', g1, g2, g3⟩ := rescale_tile m 32 8 (3 : Nat) (o.rescaleParams pm'') (sz := [1, osy, osx, kn]) (li := R.lo4) (lo := R.lo4) (bi := R.bo) (bo := bm)
      (src := l) (dst := d) (by simp) (by simp) h.lo4_len.symm h.lo4_len.symm
      (fun y hy => by rw [p3]; exact h.inb4 hn C h.oplace hy)
      (fun y hy => by rw [p4]; exact h.inb4 hn C room.place hy)
      (fun y z hy hz e => h.sep4 hn C (p := 0) (q := 0) (fun y z hy hz e => room.place.inj y z hy hz (by omega)) hy hz (by omega))
      (fun y => R.value b (y.getD 1 0 + oy) (y.getD 2 0 + ox) (y.getD 3 0 + k0)) (fun y => inBias.get ((addPos y [b, oy, ox, k0]).getD 3 0))
      (fun y => scale.get ((addPos y [b, oy, ox, k0]).getD 3 0)) (fun y => shift.get ((addPos y [b, oy, ox, k0]).getD 3 0))
      (fun y => outBias.get ((addPos y [b, oy, ox, k0]).getD 3 0))
      (fun y hy => by
        obtain ⟨r, s, k, rfl, h3, h5⟩ := tile4 hy
        rw [h.off4, p5 r s k h3]
        rfl) (by
        unfold MapObj.rescaleParams
        rw [if_neg hax]
        simp only
        rw [hnp]
        exact ⟨rd f3, rd f4, rd f5, rd f6⟩)
    refine ⟨pm'', d', ?_, by omega, ?_, g2, ?_⟩
    · show fetchParams R.oc k0 (((parIt t.cfg R.oc 3).at n).sizes.getD 0 0) pb enc' [4, 2, 1, 1] (rescaleOffsets o.np 4) 0 pm' = _
      rw [hnp, q3]
      exact f1
    · refine issue_rescale (o := o.at n) (k := 3) rfl rfl rfl rfl ?_
      show krnRescale m 32 8 ((3 : Nat) : Int) (o.rescaleParams pm'') l (tileT (t.at n).sizes t.strides R.bo) (tileT (t.at n).sizes t.strides bm) d = some d'
      rw [q2, st]
      exact g1
    · intro r s k hy
      obtain ⟨y1, y2, y3, -⟩ := hy
      have := g3 [0, r, s, k] ⟨⟨by omega, by omega⟩, y1, y2, y3, trivial⟩
      rw [h.off4] at this
      exact this)
    (fun n b oy osy iy isy pt ox osx ix isx pl k0 kn hn C d hds hm => hcl n b oy osy iy isy pt ox osx ix isx pl k0 kn hn C d hds mval hm)
  refine ⟨enc', o, s, _, e1, ho, k1, k2, k3, fun b y x k hx => ?_⟩
  refine ⟨mval b y x k, ?_, rfl⟩
  obtain ⟨x0, -, -, -, x4, -⟩ := id hx
  have cast : ((k.toNat : Nat) : Int) = k := by omega
  have f : ∀ {sz : Nat} {src : Buf}, Fits sz R.oc.toNat src → InRange (8 * sz) (src.get k) := fun hf => by
    have := hf.2 k.toNat (by omega)
    rwa [cast] at this
  obtain ⟨r, r1, r2⟩ := rescaleValue_spec m (wi := 32) (wo := 8) (by omega) (by omega) (shift.get k) (h.value_range (y := y) (x := x) x0 x4) (f h1) (f h4) (f h2)
  rw [clamp_of_inRange (hd b y x k hx)] at r1
  exact ⟨r, r1, r2⟩

/-! ### A case: two channels in tiles of one channel, height in two tiles -/

theorem exDcLayerRoom : DcLayerRoom exDcRun 0 20 ⟨40, fun _ => 0⟩ where
  place := ⟨rfl, rfl, allIn (ns := [1, 4, 5, 1, 1]) (by decide +kernel), exDcOk.oplace.inj⟩
  last := ⟨rfl, rfl, allIn (ns := [1, 4, 5, 1, 1]) (by decide +kernel), exDcOk.oplace.inj⟩
  apart := fun y z hy hz => allIn (ns := [1, 4, 5, 1, 1])
    (P := fun y => ∀ z ∈ rowMajor [1, 4, 5, 1, 1], 0 + offset [20, 5, 1, 1, 1] y = 20 + offset [20, 5, 1, 1, 1] z → y = z) (by decide +kernel) y hy z (mem_rowMajor.mpr hz)

theorem exDcLayerDiff (b y x k : Int) (h : InShape exDcRun.oshape [b, y, x, 0, k]) :
    InRange 32 (exDcRun.value b y x k - (Buf.ofList [0, 10]).get k) := by
  have ha := allIn (ns := [2, 7, 5, 1, 2]) (P := fun i => |exDcRun.value (i.getD 0 0) (i.getD 1 0) (i.getD 2 0) (i.getD 4 0)| ≤ 1000)
    (by decide +kernel) [b, y, x, 0, k] h
  simp only [List.getD_cons_zero, List.getD_cons_succ] at ha
  rw [abs_le] at ha
  obtain ⟨-, -, -, -, h4, -⟩ := h
  have h5 : k < 2 := h4.2
  have : k = 0 ∨ k = 1 := by omega
  have : 0 ≤ (Buf.ofList [0, 10]).get k ∧ (Buf.ofList [0, 10]).get k ≤ 10 := by rcases this with rfl | rfl <;> decide
  constructor <;> simp only [lo, hi] <;> omega

example : ∃ enc' o s, ∃ val : List Int → Int, exLayerEnc = some enc' ∧
    MapObj.new false 4 1 3 (dropGroup exDcRun.out) (parIt (dropGroup exDcRun.out).cfg 2 3) (dropGroup exDcRun.out) 0 0 2 (exZeros 10) = some o ∧
    DcLayerHost.run .up exDcRun.gin exDcRun.gw exDcRun.gz enc' 2 [70, 10, 2, 1] exDcRun.rounds
      (exDcRun.layer o (ClipObj.new 1 (dropGroup exDcRun.out) (dropGroup exDcRun.out) 0 20 0) ⟨40, fun _ => 0⟩ (exZeros 10) (Buf.ofList [251, 9])) = some s ∧
    s.gout.get 35 = val [0, 3, 2, 0, 1] ∧ s.gout.get 140 = 77 ∧
    ∃ v, Rescaled .up 8 13 10 3 2 1 v ∧ val [0, 3, 2, 0, 1] = min (max v (-5)) 9 := by
  obtain ⟨enc', o, s, val, h1, h2, h3, -, h4, h5⟩ := c95_transpose_layer_partial .up exDcRun exDcOk rfl 0 20 2 0 ⟨40, fun _ => 0⟩ (exZeros 10)
    (Buf.ofList [251, 9]) (exZeros 16) (-5, 9) exDcLayerRoom (by decide)
    (Buf.ofList [0, 10]) (Buf.ofList [1, 3]) (Buf.ofList [1, 2]) (Buf.ofList [0, 1])
    (show Fits 4 2 _ by unfold Fits; decide) (show Fits 2 2 _ by unfold Fits; decide) (show Fits 1 2 _ by unfold Fits; decide) (show Fits 1 2 _ by unfold Fits; decide)
    (show rescaleEncodedSize 2 4 1 ≤ 16 by decide) (by decide) (show 2 + rescaleEncodedSize 1 4 1 ≤ 10 by decide) exDcLayerDiff
  have e : exDcRun.value 0 3 2 1 = 13 := by decide +kernel
  obtain ⟨v, h7, h8⟩ := h5 0 3 2 1 (show InShape [2, 7, 5, 1, 2] [0, 3, 2, 0, 1] by decide)
  rw [e] at h7
  exact ⟨enc', o, s, val, h1, h2, h3, h4.elem [0, 3, 2, 0, 1] (show InShape [2, 7, 5, 1, 2] [0, 3, 2, 0, 1] by decide),
    h4.frame 140 (allIn (ns := [2, 7, 5, 1, 2]) (P := fun x => offset [70, 10, 2, 2, 1] x ≠ 140) (by decide +kernel)), v, h7, h8⟩

/-- The run, as computed by the model. -/
example : (exLayerEnc.bind fun enc =>
    (MapObj.new false 4 1 3 (dropGroup exDcRun.out) (parIt (dropGroup exDcRun.out).cfg 2 3) (dropGroup exDcRun.out) 0 0 2 (exZeros 10)).bind fun o =>
    (DcLayerHost.run .up exDcRun.gin exDcRun.gw exDcRun.gz enc 2 [70, 10, 2, 1] exDcRun.rounds
      (exDcRun.layer o (ClipObj.new 1 (dropGroup exDcRun.out) (dropGroup exDcRun.out) 0 20 0) ⟨40, fun _ => 0⟩ (exZeros 10) (Buf.ofList [251, 9]))).map
      fun s => (s.status, s.gout.toList)) =
    some (.ok, [2, -5, 3, -4, 4, -1, 7, 0, 6, 5, 8, -2, 9, 4, 1, 3, 4, -4, 4, 3, 1, -5, -2, -5, 3, -4, 5, -2, 5, 2, 7, 3, 6, 0, -1, 3, 3, -5, 2,
      3, 7, 8, -1, 2, 2, -5, 3, -4, 4, -1, 5, 3, 2, -3, 8, -2, 9, 4, 1, 3, 6, 5, 1, 9, 1, -5, -2, -5, 3, -4, 5, 2, 9, 3, 7, 8, -1, 2, 2,
      -5, 2, 3, 4, 0, 5, 3, 2, -3, 8, -2, 4, -1, 7, 0, 6, 5, 1, 9, 1, -5, 1, 3, 4, -4, 4, 3, 5, 3, 7, 3, 3, -4, 5, -2, 5, 2, 9, 3, 7, 8,
      -1, 3, 3, -5, 2, 3, 4, 0, 5, 3, 2, -5, 3, -4, 4, -1, 7, 0, 6, 5, 77]) := by decide +kernel

end Mli.Rt
