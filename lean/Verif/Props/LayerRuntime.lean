import Verif.Lemmas.LayerRuntime
import Verif.Props.ConvTiles
import Verif.Props.Params

/-! # C75: a layer of run-time kernels tile by tile -/

namespace Mli.Rt

open Mli Mli.Iter Mli.Spec

/-! ## The sums fit into 32 bits -/

theorem sum_abs_le (m : Nat) (f : Nat → Int) (b : Int) (hf : ∀ i, i < m → |f i| ≤ b) : |∑ i ∈ Finset.range m, f i| ≤ m * b := by
  refine (Finset.abs_sum_le_sum_abs _ _).trans ?_
  have := Finset.sum_le_card_nsmul (Finset.range m) (fun i => |f i|) b (fun i hi => hf i (Finset.mem_range.1 hi))
  simpa using this

theorem convSum_abs_pad (kh kw n ih iw z : Int) (X W : Int → Int → Int → Int) (sh sw pt pl dh dw y x A B : Int) (h1 : 0 ≤ kh) (h2 : 0 ≤ kw) (h3 : 0 ≤ n) (hA : |z| ≤ A)
    (hX : ∀ r q c, 0 ≤ r → r < ih → 0 ≤ q → q < iw → 0 ≤ c → c < n → |X r q c| ≤ A)
    (hW : ∀ i j c, 0 ≤ i → i < kh → 0 ≤ j → j < kw → 0 ≤ c → c < n → |W i j c| ≤ B) :
    |convSum kh kw n (padded ih iw z X) W sh sw pt pl dh dw y x| ≤ n * (kh * kw) * (A * B) := by
  unfold convSum
  have e : n * (kh * kw) * (A * B) = kh.toNat * (kw.toNat * (n.toNat * (A * B))) := by
    rw [show ((kh.toNat : Nat) : Int) = kh by omega, show ((kw.toNat : Nat) : Int) = kw by omega, show ((n.toNat : Nat) : Int) = n by omega]
    ring
  rw [e]
  refine sum_abs_le _ _ _ fun i hi => sum_abs_le _ _ _ fun j hj => sum_abs_le _ _ _ fun c hc => ?_
  rw [abs_mul]
  refine mul_le_mul ?_ (hW _ _ _ (by omega) (by omega) (by omega) (by omega) (by omega) (by omega)) (abs_nonneg _) (le_trans (abs_nonneg _) hA)
  unfold padded
  split
  · rename_i hr
    exact hX _ _ _ hr.1 hr.2.1 hr.2.2.1 hr.2.2.2 (by omega) (by omega)
  · exact hA

/-- The sums of an accepted run are numbers of 32 bits. -/
theorem ConvOk.value_range {R : ConvRun} (h : ConvOk R) {b y x k : Int} (hb : 0 ≤ b ∧ b < R.nb) (hk : 0 ≤ k ∧ k < R.oc) : InRange 32 (R.value b y x k) := by
  have ab : ∀ {v : Int}, InRange 8 v → |v| ≤ 128 := fun {v} hv => by
    obtain ⟨l, u⟩ := hv
    simp only [lo, hi] at l u
    rw [abs_le]
    omega
  have ht := h.taps
  have hz := h.zwts k hk.1 hk.2
  have k1 := h.kern
  have hic := h.inch
  have tot : |R.value b y x k| ≤ 43690 * (128 * 255) := by
    unfold ConvRun.value
    by_cases hd : R.dw = true
    · rw [if_pos hd] at ht ⊢
      refine (convSum_abs_pad R.kh R.kw 1 R.ih R.iw R.zx _ _ _ _ _ _ _ _ _ _ 128 255 (by omega) (by omega) (by omega) (ab h.zin) ?_ ?_).trans ?_
      · intro r q c r0 r1 q0 q1 _ _
        exact ab (h.inb [b, r, q, 0, k] ⟨hb, ⟨r0, r1⟩, ⟨q0, q1⟩, ⟨by omega, by omega⟩, ⟨hk.1, by rw [h.depth hd]; exact hk.2⟩, trivial⟩).2
      · intro i j c i0 i1 j0 j1 _ _
        have := (h.wb [i, j, k] (by unfold ConvRun.wshape; rw [if_pos hd]; exact ⟨⟨i0, i1⟩, ⟨j0, j1⟩, hk, trivial⟩)).2
        obtain ⟨l, u⟩ := this
        obtain ⟨l', u'⟩ := hz
        unfold ConvRun.weight
        rw [if_pos hd]
        simp only [lo, hi] at l u l' u'
        rw [abs_le]
        omega
      · nlinarith
    · rw [if_neg hd] at ht ⊢
      refine (convSum_abs_pad R.kh R.kw R.ic R.ih R.iw R.zx _ _ _ _ _ _ _ _ _ _ 128 255 (by omega) (by omega) (by omega) (ab h.zin) ?_ ?_).trans ?_
      · intro r q c r0 r1 q0 q1 c0 c1
        exact ab (h.inb [b, r, q, 0, c] ⟨hb, ⟨r0, r1⟩, ⟨q0, q1⟩, ⟨by omega, by omega⟩, ⟨c0, c1⟩, trivial⟩).2
      · intro i j c i0 i1 j0 j1 c0 c1
        have := ab (h.wb [0, i, j, c, k] (by unfold ConvRun.wshape; rw [if_neg hd]; exact ⟨⟨by omega, by omega⟩, ⟨i0, i1⟩, ⟨j0, j1⟩, ⟨c0, c1⟩, hk, trivial⟩)).2
        unfold ConvRun.weight
        rw [if_neg hd]
        omega
      · nlinarith
  rw [abs_le] at tot
  constructor <;> simp only [lo, hi] <;> omega

/-! ## The limits -/

/-- `v` after CLIP, if there is one. -/
def limited (lim : Option (Int × Int)) (v : Int) : Int :=
  match lim with
  | none => v
  | some l => min (max v l.1) l.2

/-- The tiles of 8-bit results: the output of RESCALE or PRELU at `bm` and the output of CLIP at `bc`, both laid out like the output tile of the convolution.
They may be the same but must not overlap otherwise. -/
structure LayerRoom (R : ConvRun) (bm bc : Int) (mid : Buf) : Prop where
  place : Place R.tiles R.lo bm mid.size
  last : Place R.tiles R.lo bc mid.size
  apart : ∀ y z, InShape R.tiles y → InShape R.tiles z → bm + offset R.lo y = bc + offset R.lo z → y = z

/-- The CLIP of the layer, if there are limits. -/
def clipOf (R : ConvRun) (bm bc pc : Int) (lim : Option (Int × Int)) : Option ClipObj :=
  lim.map fun _ => ClipObj.new 1 (dropGroup R.out) (dropGroup R.out) bm bc pc

/-- The limits are those in the buffer for CLIP; without CLIP the last tile is that of RESCALE or PRELU. -/
def LimitsAt (bm bc pc : Int) (cp : Buf) (lim : Option (Int × Int)) : Prop :=
  match lim with
  | none => bc = bm
  | some l => clipParams 1 pc cp = some l

theorem ConvOk.cell_in {R : ConvRun} (h : ConvOk R) {n : Nat} {b oy osy iy isy pt ox osx ix isx pl k0 kn c0 cn : Int}
    (C : ConvCell R n b oy osy iy isy pt ox osx ix isx pl k0 kn c0 cn) {y : List Int} (hy : InShape [1, osy, osx, 1, kn] y) :
    InShape R.tiles y ∧ InShape R.oshape (addPos y [b, oy, ox, 0, k0]) := by
  have hq := tileSeq_range (shape := R.oshape) h.tiling rfl R.lo
  change TileSeq R.oshape R.tiles R.rounds (fun n => (R.out.at n).getPos) (fun n => (R.out.at n).sizes) at hq
  have h1 := hq.local_ (n := n) (y := y) (by rw [C.osz]; exact hy)
  have h2 := hq.global (n := n) (y := y) (by rw [C.osz]; exact hy)
  rw [C.opos] at h2
  exact ⟨h1, h2⟩

/-- An element of a tile without the group. -/
theorem tile4 {osy osx kn : Int} {y : List Int} (hy : InShape [1, osy, osx, kn] y) :
    ∃ r q k, y = [0, r, q, k] ∧ InShape [osy, osx, kn] [r, q, k] ∧ InShape [1, osy, osx, 1, kn] [0, r, q, 0, k] := by
  match y, hy with
  | [a, r, q, k], hy =>
    obtain ⟨y0, y1, y2, y3, -⟩ := hy
    obtain rfl : a = 0 := by omega
    exact ⟨r, q, k, rfl, ⟨y1, y2, y3, trivial⟩, y0, y1, y2, ⟨by omega, by omega⟩, y3, trivial⟩

theorem ConvOk.off4 {R : ConvRun} (h : ConvOk R) (r q k : Int) : offset R.lo4 [0, r, q, k] = at5 R.lo r q k := by
  obtain ⟨a0, a1, a2, a3, elo⟩ := strides5 h.oplace rfl
  unfold ConvRun.lo4 at5
  rw [elo]
  simp [offset]

theorem ConvOk.lo4_len {R : ConvRun} (h : ConvOk R) : R.lo4.length = 4 := by
  obtain ⟨a0, a1, a2, a3, elo⟩ := strides5 h.oplace rfl
  unfold ConvRun.lo4
  rw [elo]
  rfl

theorem ConvOk.sizes4 {R : ConvRun} (h : ConvOk R) (n : Nat) : ((dropGroup R.out).at n).sizes.length = 4 := by
  obtain ⟨b, oy, osy, iy, isy, pt, ox, osx, ix, isx, pl, k0, kn, c0, cn, C⟩ := h.cell n
  rw [(h.at4 C).2]
  rfl

theorem clip_update {R : ConvRun} (h : ConvOk R) (bm bc pc : Int) (lim : Option (Int × Int)) (n : Nat) :
    ((clipOf R bm bc pc lim).map (·.at n)).map ClipObj.update = (clipOf R bm bc pc lim).map (·.at (n + 1)) := by
  unfold clipOf
  cases lim with
  | none => rfl
  | some l =>
    simp only [Option.map_some, Option.some.injEq]
    have e : (dropGroup R.out).strides.length = 4 := h.lo4_len
    have h1 := h.sizes4 n
    have h2 := h.sizes4 (n + 1)
    unfold ClipObj.update ClipObj.at ClipObj.new
    simp only [TIt.at_next]
    rw [tileT_setShape (by omega) (by omega), tileT_setShape (by omega) (by omega)]

theorem clip_stage {R : ConvRun} (h : ConvOk R) {bm bc pc : Int} {mid cp : Buf} {lim : Option (Int × Int)} (room : LayerRoom R bm bc mid)
    (hl : LimitsAt bm bc pc cp lim) (n : Nat) (b oy osy iy isy pt ox osx ix isx pl k0 kn c0 cn : Int)
    (C : ConvCell R n b oy osy iy isy pt ox osx ix isx pl k0 kn c0 cn) (d : Buf) (hd : d.size = mid.size) (mval : Int → Int → Int → Int → Int)
    (hm : TileHolds R d bm b oy osy ox osx k0 kn mval) :
    ∃ d', clipStage ((clipOf R bm bc pc lim).map (·.at n)) cp d = some (.ok, d') ∧ d'.size = d.size ∧
      TileHolds R d' bc b oy osy ox osx k0 kn (fun b y x k => limited lim (mval b y x k)) := by
  cases lim with
  | none =>
    have : bc = bm := hl
    subst this
    exact ⟨d, rfl, rfl, hm⟩
  | some l =>
    have hl' : clipParams 1 pc cp = some l := hl
    have z4 := (h.at4 C).2
    have l4 := h.lo4_len
    have st : (dropGroup R.out).strides = R.lo4 := rfl
    have mem : ∀ {y z : List Int}, InShape [1, osy, osx, kn] y → InShape [1, osy, osx, kn] z →
        ∀ p q : Int, (∀ y z, InShape R.tiles y → InShape R.tiles z → p + offset R.lo y = q + offset R.lo z → y = z) →
          p + offset R.lo4 y = q + offset R.lo4 z → y = z := by
      intro y z hy hz p q hj e
      obtain ⟨r, s, k, rfl, -, h5⟩ := tile4 hy
      obtain ⟨r', s', k', rfl, -, h5'⟩ := tile4 hz
      rw [h.off4, h.off4] at e
      have := hj _ _ (h.cell_in C h5).1 (h.cell_in C h5').1 e
      simp only [List.cons.injEq, and_true, true_and] at this
      rw [this.1, this.2.1, this.2.2]
    obtain ⟨d', c1, c2, c3⟩ := clip_tile l.1 l.2 (sz := [1, osy, osx, kn]) (li := R.lo4) (lo := R.lo4) (bi := bm) (bo := bc) (mem := d) (by simp)
      (by simp [l4]) (by simp [l4])
      (fun y hy => by
        obtain ⟨r, s, k, rfl, -, h5⟩ := tile4 hy
        rw [h.off4, hd]
        exact room.place.inb _ (h.cell_in C h5).1)
      (fun y hy => by
        obtain ⟨r, s, k, rfl, -, h5⟩ := tile4 hy
        rw [h.off4, hd]
        exact room.last.inb _ (h.cell_in C h5).1)
      (fun y z hy hz e => mem hy hz 0 0 (fun y z hy hz e => room.last.inj y z hy hz (by omega)) (by omega))
      (fun y z hy hz e => mem hy hz bm bc room.apart e)
    refine ⟨d', ?_, c2, ?_⟩
    · show (clipParams 1 pc cp).bind (fun p => clipIssue 1 1 p.1 p.2 (tileT ((dropGroup R.out).at n).sizes (dropGroup R.out).strides bm)
        (tileT ((dropGroup R.out).at n).sizes (dropGroup R.out).strides bc) d) = _
      rw [hl', Option.bind_some, z4, st]
      unfold clipIssue
      rw [if_pos ⟨rfl, rfl⟩, c1]
      rfl
    · intro r s k hy
      obtain ⟨y1, y2, y3, -⟩ := hy
      have := c3 [0, r, s, k] ⟨⟨by omega, by omega⟩, y1, y2, y3, trivial⟩
      rw [h.off4, hm r s k ⟨y1, y2, y3, trivial⟩] at this
      exact this

theorem clip_base {R : ConvRun} {bm bc pc : Int} {cp : Buf} {lim : Option (Int × Int)} (hl : LimitsAt bm bc pc cp lim) (n : Nat) :
    (match (clipOf R bm bc pc lim).map (·.at n) with | none => bm | some k => k.tout.base) = bc := by
  cases lim with
  | none => exact hl.symm
  | some l => rfl

theorem clip_start (R : ConvRun) (bm bc pc : Int) (lim : Option (Int × Int)) : clipOf R bm bc pc lim = (clipOf R bm bc pc lim).map (·.at 0) := by
  cases lim with
  | none => rfl
  | some l => rfl

/-- The objects of RESCALE and PRELU follow their iterators. -/
theorem map_update {o : MapObj} (h1 : ∀ n, (o.inp.at n).sizes.length = o.inp.strides.length) (h2 : ∀ n, (o.out.at n).sizes.length = o.out.strides.length) (n : Nat) :
    (o.at n).update = o.at (n + 1) := by
  unfold MapObj.update MapObj.at
  simp only [TIt.at_next]
  rw [tileT_setShape (h1 n) (h1 (n + 1)), tileT_setShape (h2 n) (h2 (n + 1))]

/-- `Issue` of a RESCALE from 32 to 8 bits. -/
theorem issue_rescale {m : Rnd} {o : MapObj} {pm src dst d : Buf} {k : Int} (h1 : o.prelu = false) (h2 : o.esi = 4) (h3 : o.eso = 1) (h4 : o.axis = k)
    (h : krnRescale m 32 8 k (o.rescaleParams pm) src o.tin o.tout dst = some d) : o.issue m pm src dst = some (.ok, d) := by
  subst h4
  unfold MapObj.issue rescaleIssue
  rw [h1, h2, h3, h]
  rfl

/-! ## Convolution, RESCALE, CLIP -/

/-- C75 with RESCALE: encode the parameters of the output channels, create a convolution (`Conv2d` or `DepthwiseConv2d`), a RESCALE on its output tile and
perhaps a CLIP on the output tile of RESCALE, and go through all tiles.  In each round the caller copies the tiles of input, weights and zero points and the
parameters of the channels of the tile, runs the kernels one after the other in local memory, and copies the last tile to the output tensor.  This ends
with status OK.  Every element of the output tensor is `round((sum - b_in) * s / 2^k) + b_out`, limited to 8 bits and then to the limits of CLIP, where
`sum` is the sum over its window in the whole input tensor (C70) and the parameters are the user's parameters of its channel.  Nothing else in the output
buffer changes.

Partial: the conditions of C70 (`ConvOk`), and `sum - b_in` must be a number of 32 bits (else it is limited to this range first, see C41). -/
theorem c75_rescale_layer_partial (m : Rnd) (R : ConvRun) (h : ConvOk R) (hg : R.gos.length = 5) (bm bc pb pc : Int) (mid pm cp enc : Buf)
    (lim : Option (Int × Int)) (room : LayerRoom R bm bc mid) (hl : LimitsAt bm bc pc cp lim) (inBias scale shift outBias : Buf)
    (h1 : Fits 4 R.oc.toNat inBias) (h2 : Fits 2 R.oc.toNat scale) (h3 : Fits 1 R.oc.toNat shift) (h4 : Fits 1 R.oc.toNat outBias)
    (he : rescaleEncodedSize R.oc 4 1 ≤ enc.size) (hpb : 0 ≤ pb) (hpm : pb + rescaleEncodedSize R.t4 4 1 ≤ pm.size)
    (hd : ∀ b y x k, InShape R.oshape [b, y, x, 0, k] → InRange 32 (R.value b y x k - inBias.get k)) :
    ∃ enc' o s val, rescaleEncode R.oc.toNat 4 1 inBias scale shift outBias enc = some enc' ∧
      MapObj.new false 4 1 3 (dropGroup R.out) (parIt (dropGroup R.out).cfg R.oc 3) (dropGroup R.out) R.bo bm pb pm = some o ∧
      LayerHost.run m R.gin R.gw R.gz enc' R.oc (R.gos.eraseIdx 3) R.rounds (R.layer o (clipOf R bm bc pc lim) mid pm cp) = some s ∧ s.status = .ok ∧
      Result R.oshape R.gos val R.gout s.gout ∧
      ∀ b y x k, InShape R.oshape [b, y, x, 0, k] →
        ∃ v, Rescaled m 8 (R.value b y x k) (inBias.get k) (scale.get k) (shift.get k) (outBias.get k) v ∧ val [b, y, x, 0, k] = limited lim v := by
  have hch := h.chans
  have eN : ((R.oc.toNat : Nat) : Int) = R.oc := by omega
  obtain ⟨enc', e1, -, -, e4⟩ := c71_rescale R.oc.toNat 4 1 inBias scale shift outBias enc (by omega) h1 h2 h3 h4 (by rw [eN]; exact he)
  have T4 := h.tiling4
  have hpar : ∀ n, ((parIt (dropGroup R.out).cfg R.oc 3).at n).sizes = [((dropGroup R.out).at n).sizes.getD 3 0] ∧
      maxParams false 3 (dropGroup R.out) (parIt (dropGroup R.out).cfg R.oc 3) = R.t4 := fun n => by
    rw [h.drop]
    exact par_tile (a := 3) T4 rfl rfl (by omega) R.lo4 _ n
  have sizes4 := h.sizes4
  have at4 : ∀ {n : Nat} {b oy osy iy isy pt ox osx ix isx pl k0 kn c0 cn : Int}, ConvCell R n b oy osy iy isy pt ox osx ix isx pl k0 kn c0 cn →
    ((dropGroup R.out).at n).sizes = [1, osy, osx, kn] := fun C => (h.at4 C).2
  have l4 : (dropGroup R.out).strides.length = 4 := h.lo4_len
  have st : (dropGroup R.out).strides = R.lo4 := rfl
  have t0 : (dropGroup R.out).at 0 = dropGroup R.out := rfl
  generalize dropGroup R.out = t at *
  let o : MapObj := { prelu := false, esi := 4, eso := 1, axis := 3, inp := t, par := parIt t.cfg R.oc 3, out := t
                      np := maxParams false 3 t (parIt t.cfg R.oc 3), pb
                      imm := ⟨Buf.ofList [], Buf.ofList [], Buf.ofList [], Buf.ofList []⟩
                      tin := tileT t.sizes t.strides R.bo, tout := tileT t.sizes t.strides bm }
  have ho : MapObj.new false 4 1 3 t (parIt t.cfg R.oc 3) t R.bo bm pb pm = some o := rfl
  have o0 : o = o.at 0 := by
    unfold MapObj.at
    simp only [o]
    rw [t0]
    rfl
  have hnp : o.np = R.t4 := (hpar 0).2
  have hax : o.axis ≠ -1 := show (3 : Int) ≠ -1 by decide
  let mval : Int → Int → Int → Int → Int := fun b y x k => rescaleValue m 32 8 (R.value b y x k) (inBias.get k) (outBias.get k) (scale.get k) (shift.get k)
  obtain ⟨s, k1, k2, k3⟩ := layer_run h hg m o (clipOf R bm bc pc lim) mid pm cp enc' R.oc bm bc o0
    (map_update (fun n => (sizes4 n).trans l4.symm) (fun n => (sizes4 n).trans l4.symm)) rfl (clip_start R bm bc pc lim)
    (clip_update h bm bc pc lim) (clip_base hl) room.last mval (limited lim) (by
    intro n b oy osy iy isy pt ox osx ix isx pl k0 kn c0 cn hn C pm' l d p1 p2 p3 p4 p5
    have q2 := at4 C
    obtain ⟨x1, x2, x3, x4⟩ := C.hk
    have eo : ((k0.toNat : Nat) : Int) = k0 := by omega
    have ec : ((kn.toNat : Nat) : Int) = kn := by omega
    obtain ⟨pm'', f1, f2, f3, f4, f5, f6⟩ := e4 k0.toNat kn.toNat R.t4 pb pm' (by omega) (by omega) hpb (by rw [p1]; exact hpm)
    rw [eN, eo, ec] at f1
    have rd : ∀ {sz : Nat} {p : Int} {src : Buf}, Delivers sz p pm'' src k0.toNat kn.toNat →
        ∀ y, InShape [1, osy, osx, kn] y → (typed sz p pm'').rd (paramIdx (3 : Nat) y) = some (src.get ((addPos y [b, oy, ox, k0]).getD 3 0)) :=
      fun hdl y hy => delivers_rd (a := 3) hdl hy rfl (by simp) ec.symm eo.symm
    obtain ⟨d', g1, g2, g3⟩ := rescale_tile m 32 8 (3 : Nat) (o.rescaleParams pm'') (sz := [1, osy, osx, kn]) (li := R.lo4) (lo := R.lo4) (bi := R.bo) (bo := bm)
      (src := l) (dst := d) (by simp) (by simp) h.lo4_len.symm h.lo4_len.symm
      (fun y hy => by
        obtain ⟨r, s, k, rfl, -, h5⟩ := tile4 hy
        rw [h.off4, p3]
        exact h.oplace.inb _ (h.cell_in C h5).1)
      (fun y hy => by
        obtain ⟨r, s, k, rfl, -, h5⟩ := tile4 hy
        rw [h.off4, p4]
        exact room.place.inb _ (h.cell_in C h5).1)
      (fun y z hy hz e => by
        obtain ⟨r, s, k, rfl, -, h5⟩ := tile4 hy
        obtain ⟨r', s', k', rfl, -, h5'⟩ := tile4 hz
        rw [h.off4, h.off4] at e
        have := room.place.inj _ _ (h.cell_in C h5).1 (h.cell_in C h5').1 e
        simp only [List.cons.injEq, and_true, true_and] at this
        rw [this.1, this.2.1, this.2.2])
      (fun y => R.value b (y.getD 1 0 + oy) (y.getD 2 0 + ox) (y.getD 3 0 + k0)) (fun y => inBias.get ((addPos y [b, oy, ox, k0]).getD 3 0))
      (fun y => scale.get ((addPos y [b, oy, ox, k0]).getD 3 0)) (fun y => shift.get ((addPos y [b, oy, ox, k0]).getD 3 0))
      (fun y => outBias.get ((addPos y [b, oy, ox, k0]).getD 3 0))
      (fun y hy => by
        obtain ⟨r, s, k, rfl, h3, h5⟩ := tile4 hy
        rw [h.off4, p5 r s k h3]
        rfl) (by
        unfold MapObj.rescaleParams
        rw [if_neg hax]
        simp only
        rw [hnp]
        exact ⟨rd f3, rd f4, rd f5, rd f6⟩)
    refine ⟨pm'', d', ?_, by omega, fun c => absurd c hax, ?_, g2, ?_⟩
    · rw [if_neg hax]
      show fetchParams R.oc k0 (((parIt t.cfg R.oc 3).at n).sizes.getD 0 0) pb enc' [4, 2, 1, 1] (rescaleOffsets o.np 4) 0 pm' = _
      rw [hnp, (hpar n).1, q2]
      exact f1
    · refine issue_rescale (o := o.at n) (k := 3) rfl rfl rfl rfl ?_
      show krnRescale m 32 8 ((3 : Nat) : Int) (o.rescaleParams pm'') l (tileT (t.at n).sizes t.strides R.bo) (tileT (t.at n).sizes t.strides bm) d = some d'
      rw [q2, st]
      exact g1
    · intro r s k hy
      obtain ⟨y1, y2, y3, -⟩ := hy
      have := g3 [0, r, s, k] ⟨⟨by omega, by omega⟩, y1, y2, y3, trivial⟩
      rw [h.off4] at this
      exact this)
    (fun n b oy osy iy isy pt ox osx ix isx pl k0 kn c0 cn hn C d hds hm => clip_stage h room hl n b oy osy iy isy pt ox osx ix isx pl k0 kn c0 cn C d hds mval hm)
  refine ⟨enc', o, s, _, e1, ho, k1, k2, k3, fun b y x k hx => ?_⟩
  refine ⟨mval b y x k, ?_, rfl⟩
  obtain ⟨x0, -, -, -, x4, -⟩ := id hx
  have cast : ((k.toNat : Nat) : Int) = k := by omega
  have f : ∀ {sz : Nat} {src : Buf}, Fits sz R.oc.toNat src → InRange (8 * sz) (src.get k) := fun hf => by
    have := hf.2 k.toNat (by omega)
    rwa [cast] at this
  obtain ⟨r, r1, r2⟩ := rescaleValue_spec m (wi := 32) (wo := 8) (by omega) (by omega) (shift.get k) (h.value_range (y := y) (x := x) x0 x4) (f h1) (f h4) (f h2)
  rw [clamp_of_inRange (hd b y x k hx)] at r1
  exact ⟨r, r1, r2⟩

/-! ## Convolution, PRELU, CLIP -/

/-- C75 with PRELU instead of RESCALE: an element is `round((sum - b_in) * s / 2^k) + b_out`, limited to 8 bits and then to the limits of CLIP, with the scale
and shift for positive numbers if `sum ≥ b_in` and those for negative numbers else, all those of its channel.

Partial: as above; a `sum - b_in` that is not a number of 32 bits is undefined behaviour (see C72). -/
theorem c75_prelu_layer_partial (m : Rnd) (R : ConvRun) (h : ConvOk R) (hg : R.gos.length = 5) (bm bc pb pc : Int) (mid pm cp enc : Buf)
    (lim : Option (Int × Int)) (room : LayerRoom R bm bc mid) (hl : LimitsAt bm bc pc cp lim) (bias pos neg posShift negShift asymm : Buf) (par : TIt)
    (hpar : par = TIt.start par.cfg par.shape par.strides)
    (hn : bias.size = R.oc ∧ pos.size = R.oc ∧ neg.size = R.oc ∧ posShift.size = R.oc ∧ negShift.size = R.oc ∧ asymm.size = R.oc)
    (h1 : Fits 4 R.oc.toNat bias) (h2 : Fits 2 R.oc.toNat pos) (h3 : Fits 2 R.oc.toNat neg)
    (h4 : Fits 1 R.oc.toNat posShift) (h5 : Fits 1 R.oc.toNat negShift) (h6 : Fits 1 R.oc.toNat asymm)
    (he : preluEncodedSize R.oc ≤ enc.size) (hpb : 0 ≤ pb) (hpm : pb + preluEncodedSize R.t4 ≤ pm.size)
    (hd : ∀ b y x k, InShape R.oshape [b, y, x, 0, k] → InRange 32 (R.value b y x k - bias.get k)) :
    ∃ enc' o s val, preluEncode bias pos neg posShift negShift asymm enc = some enc' ∧
      MapObj.new true 4 1 4 R.out par R.out R.bo bm pb pm = some o ∧
      LayerHost.run m R.gin R.gw R.gz enc' R.oc (R.gos.eraseIdx 3) R.rounds (R.layer o (clipOf R bm bc pc lim) mid pm cp) = some s ∧ s.status = .ok ∧
      Result R.oshape R.gos val R.gout s.gout ∧
      ∀ b y x k, InShape R.oshape [b, y, x, 0, k] →
        ∃ v, (if bias.get k ≤ R.value b y x k then Rescaled m 8 (R.value b y x k) (bias.get k) (pos.get k) (posShift.get k) (asymm.get k) v
            else Rescaled m 8 (R.value b y x k) (bias.get k) (neg.get k) (negShift.get k) (asymm.get k) v) ∧ val [b, y, x, 0, k] = limited lim v := by
  have hch := h.chans
  have eN : ((R.oc.toNat : Nat) : Int) = R.oc := by omega
  obtain ⟨enc', e1, -, -, e4⟩ := c71_prelu R.oc.toNat bias pos neg posShift negShift asymm enc (by rw [eN]; exact hn) h1 h2 h3 h4 h5 h6
    (by rw [eN]; exact he)
  have hq := tileSeq_range (shape := R.oshape) h.tiling rfl R.lo
  change TileSeq R.oshape R.tiles R.rounds (fun n => (R.out.at n).getPos) (fun n => (R.out.at n).sizes) at hq
  have l5 : ∀ n, (R.out.at n).sizes.length = R.out.strides.length := fun n => by
    rw [hq.lenS n]
    exact h.oplace.len.symm
  have hnp0 : maxParams true 4 R.out par = R.t4 := prelu_np (shape := R.oshape) h.tiling rfl 4 R.lo par
  let o : MapObj := { prelu := true, esi := 4, eso := 1, axis := 4, inp := R.out, par, out := R.out, np := maxParams true 4 R.out par, pb
                      imm := ⟨Buf.ofList [], Buf.ofList [], Buf.ofList [], Buf.ofList []⟩
                      tin := tileT R.out.sizes R.out.strides R.bo, tout := tileT R.out.sizes R.out.strides bm }
  have ho : MapObj.new true 4 1 4 R.out par R.out R.bo bm pb pm = some o := rfl
  have hnp : o.np = R.t4 := hnp0
  have hax : o.axis ≠ -1 := show (4 : Int) ≠ -1 by decide
  let mval : Int → Int → Int → Int → Int := fun b y x k =>
    if R.value b y x k - bias.get k ≥ 0 then rescaleValue m 32 8 (R.value b y x k) (bias.get k) (asymm.get k) (pos.get k) (posShift.get k)
    else rescaleValue m 32 8 (R.value b y x k) (bias.get k) (asymm.get k) (neg.get k) (negShift.get k)
  obtain ⟨s, k1, k2, k3⟩ := layer_run h hg m o (clipOf R bm bc pc lim) mid pm cp enc' R.oc bm bc (by
      show o = _
      unfold MapObj.at
      simp only [o]
      rw [hpar]
      rfl)
    (map_update l5 l5) rfl (clip_start R bm bc pc lim)
    (clip_update h bm bc pc lim) (clip_base hl) room.last mval (limited lim) (by
    intro n b oy osy iy isy pt ox osx ix isx pl k0 kn c0 cn hn C pm' l d p1 p2 p3 p4 p5
    obtain ⟨x1, x2, x3, x4⟩ := C.hk
    have eo : ((k0.toNat : Nat) : Int) = k0 := by omega
    have ec : ((kn.toNat : Nat) : Int) = kn := by omega
    obtain ⟨pm'', f1, f2, f3, f4, f5, f6, f7, f8⟩ := e4 k0.toNat kn.toNat R.t4 pb pm' (by omega) (by omega) hpb (by rw [p1]; exact hpm)
    rw [eN, eo, ec] at f1
    have rd : ∀ {sz : Nat} {p : Int} {src : Buf}, Delivers sz p pm'' src k0.toNat kn.toNat →
        ∀ y, InShape [1, osy, osx, 1, kn] y → (typed sz p pm'').rd (paramIdx (4 : Nat) y) = some (src.get ((addPos y [b, oy, ox, 0, k0]).getD 4 0)) :=
      fun hdl y hy => delivers_rd (a := 4) hdl hy rfl (by simp) ec.symm eo.symm
    have five : ∀ {y : List Int}, InShape [1, osy, osx, 1, kn] y → ∃ r s k, y = [0, r, s, 0, k] ∧ InShape [osy, osx, kn] [r, s, k] := fun {y} hy => by
      obtain ⟨g, r, q, e, k, rfl⟩ := inShape5 hy
      obtain ⟨y0, y1, y2, y3, y4, -⟩ := hy
      obtain rfl : g = 0 := by omega
      obtain rfl : e = 0 := by omega
      exact ⟨r, q, k, rfl, y1, y2, y4, trivial⟩
    obtain ⟨d', g1, g2, g3⟩ := prelu_tile m 8 (4 : Nat) (o.preluParams pm'') (sz := [1, osy, osx, 1, kn]) (li := R.lo) (lo := R.lo) (bi := R.bo) (bo := bm)
      (src := l) (dst := d) h.oplace.len.symm h.oplace.len.symm
      (fun y hy => by rw [p3]; exact h.oplace.inb _ (h.cell_in C hy).1) (fun y hy => by rw [p4]; exact room.place.inb _ (h.cell_in C hy).1)
      (fun y z hy hz e => room.place.inj _ _ (h.cell_in C hy).1 (h.cell_in C hz).1 e)
      (fun y => R.value b (y.getD 1 0 + oy) (y.getD 2 0 + ox) (y.getD 4 0 + k0)) (fun y => bias.get ((addPos y [b, oy, ox, 0, k0]).getD 4 0))
      (fun y => pos.get ((addPos y [b, oy, ox, 0, k0]).getD 4 0)) (fun y => neg.get ((addPos y [b, oy, ox, 0, k0]).getD 4 0))
      (fun y => posShift.get ((addPos y [b, oy, ox, 0, k0]).getD 4 0)) (fun y => negShift.get ((addPos y [b, oy, ox, 0, k0]).getD 4 0))
      (fun y => asymm.get ((addPos y [b, oy, ox, 0, k0]).getD 4 0))
      (fun y hy => by
        obtain ⟨r, s, k, rfl, h3⟩ := five hy
        exact p5 r s k h3) (by
        unfold MapObj.preluParams
        simp only
        rw [hnp]
        exact ⟨rd f3, rd f4, rd f5, rd f6, rd f7, rd f8⟩)
      (fun y hy => by
        have := (h.cell_in C hy).2
        obtain ⟨r, s, k, rfl, h3⟩ := five hy
        have := hd (0 + b) (r + oy) (s + ox) (k + k0) this
        rw [Int.zero_add] at this
        exact this)
    refine ⟨pm'', d', ?_, by omega, fun c => absurd c hax, ?_, g2, ?_⟩
    · rw [if_neg hax]
      show fetchParams R.oc k0 ((tileT (R.out.at n).sizes R.out.strides R.bo).shape.getD 4 0) pb enc' [4, 2, 2, 1, 1, 1] (preluOffsets o.np) 0 pm' = _
      rw [hnp, tileT_shape (l5 n), C.osz]
      exact f1
    · show (krnPrelu m 8 ((4 : Nat) : Int) (o.preluParams pm'') l (tileT (R.out.at n).sizes R.lo R.bo) (tileT (R.out.at n).sizes R.lo bm) d).map _ = _
      rw [C.osz, g1]
      rfl
    · intro r s k hy
      obtain ⟨y1, y2, y3, -⟩ := hy
      exact g3 [0, r, s, 0, k] ⟨⟨by omega, by omega⟩, y1, y2, ⟨by omega, by omega⟩, y3, trivial⟩)
    (fun n b oy osy iy isy pt ox osx ix isx pl k0 kn c0 cn hn C d hds hm => clip_stage h room hl n b oy osy iy isy pt ox osx ix isx pl k0 kn c0 cn C d hds mval hm)
  refine ⟨enc', o, s, _, e1, ho, k1, k2, k3, fun b y x k hx => ?_⟩
  refine ⟨mval b y x k, ?_, rfl⟩
  obtain ⟨x0, -, -, -, x4, -⟩ := id hx
  have cast : ((k.toNat : Nat) : Int) = k := by omega
  have f : ∀ {sz : Nat} {src : Buf}, Fits sz R.oc.toNat src → InRange (8 * sz) (src.get k) := fun hf => by
    have := hf.2 k.toNat (by omega)
    rwa [cast] at this
  have sp : ∀ (s t : Int), InRange 16 s → Rescaled m 8 (R.value b y x k) (bias.get k) s t (asymm.get k)
      (rescaleValue m 32 8 (R.value b y x k) (bias.get k) (asymm.get k) s t) := by
    intro s t hs
    obtain ⟨r, r1, r2⟩ := rescaleValue_spec m (wi := 32) (wo := 8) (by omega) (by omega) t (h.value_range (y := y) (x := x) x0 x4) (f h1) (f h6) hs
    rw [clamp_of_inRange (hd b y x k hx)] at r1
    exact ⟨r, r1, r2⟩
  by_cases hb : bias.get k ≤ R.value b y x k
  · rw [if_pos hb]
    have e : mval b y x k = rescaleValue m 32 8 (R.value b y x k) (bias.get k) (asymm.get k) (pos.get k) (posShift.get k) := if_pos (by omega)
    rw [e]
    exact sp _ _ (f h2)
  · rw [if_neg hb]
    have e : mval b y x k = rescaleValue m 32 8 (R.value b y x k) (bias.get k) (asymm.get k) (neg.get k) (negShift.get k) := if_neg (by omega)
    rw [e]
    exact sp _ _ (f h3)

/-- C75, status: after a round the status is OK exactly if it was before and the convolution has 8-bit input and weights and 32-bit output.  The first failure
stays. -/
theorem c75_status (m : Rnd) (gin gw : Glob) (gz enc : Buf) (n : Int) (gos : List Int) (s s' : LayerHost) (h : s.round m gin gw gz enc n gos = some s') :
    (s'.status = .ok ↔ s.status = .ok ∧ s.conv.wi = 8 ∧ s.conv.ww = 8 ∧ s.conv.wo = 32) ∧ (s.status ≠ .ok → s'.status = s.status) := by
  unfold LayerHost.round at h
  obtain ⟨lin, -, h⟩ := Option.bind_eq_some_iff.mp h
  obtain ⟨lw, -, h⟩ := Option.bind_eq_some_iff.mp h
  obtain ⟨lz, -, h⟩ := Option.bind_eq_some_iff.mp h
  obtain ⟨pm, -, h⟩ := Option.bind_eq_some_iff.mp h
  obtain ⟨⟨r1, r2⟩, hr, h⟩ := Option.bind_eq_some_iff.mp h
  obtain ⟨⟨q1, q2⟩, hq, h⟩ := Option.bind_eq_some_iff.mp h
  obtain ⟨⟨u1, u2⟩, hu, h⟩ := Option.bind_eq_some_iff.mp h
  obtain ⟨g, -, rfl⟩ := Option.map_eq_some_iff.mp h
  have a := (c70_status _ _ _ _ _ _ _ hr).1
  obtain rfl := c72_status _ _ _ _ _ _ _ hq
  obtain rfl : u1 = .ok := by
    unfold clipStage at hu
    split at hu
    · simp only [Option.some.injEq, Prod.mk.injEq] at hu
      exact hu.1.symm
    · unfold ClipObj.issue clipIssue at hu
      obtain ⟨p, -, hu⟩ := Option.bind_eq_some_iff.mp hu
      split at hu
      · obtain ⟨_, -, e⟩ := Option.map_eq_some_iff.mp hu
        exact (Prod.mk.inj e).1.symm
      · split at hu
        · obtain ⟨_, -, e⟩ := Option.map_eq_some_iff.mp hu
          exact (Prod.mk.inj e).1.symm
        · simp only [Option.some.injEq, Prod.mk.injEq] at hu
          exact hu.1.symm
  show ((firstFailure [s.status, r1, .ok, .ok]) = .ok ↔ _) ∧ (_ → firstFailure [s.status, r1, .ok, .ok] = _)
  unfold firstFailure
  by_cases c : s.status = .ok
  · by_cases c' : r1 = .ok
    · simp [c, c', a.mp c']
    · have : ¬ (s.conv.wi = 8 ∧ s.conv.ww = 8 ∧ s.conv.wo = 32) := fun x => c' (a.mpr x)
      simp [c, c', this]
  · simp [c]

/-! ### A case: two channels in tiles of one channel, with CLIP and without -/

def exLayerEnc : Option Buf := rescaleEncode 2 4 1 (Buf.ofList [0, 10]) (Buf.ofList [1, 3]) (Buf.ofList [1, 2]) (Buf.ofList [0, 1]) (exZeros 16)

theorem exLayerRoom (dw : Bool) : LayerRoom (exConvRun dw) 0 4 (exZeros 8) where
  place := ⟨rfl, rfl, allIn (ns := [1, 2, 2, 1, 1]) (by cases dw <;> decide), fun y z hy hz => allIn (ns := [1, 2, 2, 1, 1])
    (P := fun y => ∀ z ∈ rowMajor [1, 2, 2, 1, 1], offset [4, 2, 1, 1, 1] y = offset [4, 2, 1, 1, 1] z → y = z) (by decide) y hy z (mem_rowMajor.mpr hz)⟩
  last := ⟨rfl, rfl, allIn (ns := [1, 2, 2, 1, 1]) (by cases dw <;> decide), fun y z hy hz => allIn (ns := [1, 2, 2, 1, 1])
    (P := fun y => ∀ z ∈ rowMajor [1, 2, 2, 1, 1], offset [4, 2, 1, 1, 1] y = offset [4, 2, 1, 1, 1] z → y = z) (by decide) y hy z (mem_rowMajor.mpr hz)⟩
  apart := fun y z hy hz => allIn (ns := [1, 2, 2, 1, 1])
    (P := fun y => ∀ z ∈ rowMajor [1, 2, 2, 1, 1], 0 + offset [4, 2, 1, 1, 1] y = 4 + offset [4, 2, 1, 1, 1] z → y = z) (by decide) y hy z (mem_rowMajor.mpr hz)

theorem exLayerDiff (dw : Bool) (f : Int → Int) (hf : ∀ k, 0 ≤ k → k < 2 → 0 ≤ f k ∧ f k ≤ 10) (b y x k : Int) (h : InShape (exConvRun dw).oshape [b, y, x, 0, k]) :
    InRange 32 ((exConvRun dw).value b y x k - f k) := by
  have ha := allIn (ns := [2, 4, 3, 1, 2]) (P := fun i => |(exConvRun dw).value (i.getD 0 0) (i.getD 1 0) (i.getD 2 0) (i.getD 4 0)| ≤ 1000)
    (by cases dw <;> decide +kernel) [b, y, x, 0, k] h
  simp only [List.getD_cons_zero, List.getD_cons_succ] at ha
  rw [abs_le] at ha
  obtain ⟨-, -, -, -, h4, -⟩ := h
  have := hf k h4.1 h4.2
  constructor <;> simp only [lo, hi] <;> omega

/-- The hypotheses of the theorem hold for both convolutions, with and without limits. -/
example (dw : Bool) (lim : Bool) : ∃ enc' o s, ∃ val : List Int → Int, exLayerEnc = some enc' ∧
    MapObj.new false 4 1 3 (dropGroup (exConvRun dw).out) (parIt (dropGroup (exConvRun dw).out).cfg 2 3) (dropGroup (exConvRun dw).out) 0 0 2 (exZeros 10) = some o ∧
    LayerHost.run .up (exConvRun dw).gin (exConvRun dw).gw (exConvRun dw).gz enc' 2 [24, 6, 2, 1] (exConvRun dw).rounds
      ((exConvRun dw).layer o (clipOf (exConvRun dw) 0 (if lim then 4 else 0) 0 (if lim then some (-5, 9) else none)) (exZeros 8) (exZeros 10) (Buf.ofList [251, 9])) = some s ∧
    s.gout.get 3 = val [0, 0, 1, 0, 1] ∧ s.gout.get 48 = 77 ∧
    ∃ v, Rescaled .up 8 ((exConvRun dw).value 0 0 1 1) 10 3 2 1 v ∧ val [0, 0, 1, 0, 1] = limited (if lim then some (-5, 9) else none) v := by
  obtain ⟨enc', o, s, val, h1, h2, h3, -, h4, h5⟩ := c75_rescale_layer_partial .up (exConvRun dw) (exConvOk dw) rfl 0 (if lim then 4 else 0) 2 0 (exZeros 8) (exZeros 10)
    (Buf.ofList [251, 9]) (exZeros 16) (if lim then some (-5, 9) else none)
    (by cases lim
        · exact ⟨(exLayerRoom dw).place, (exLayerRoom dw).place, fun y z hy hz e => (exLayerRoom dw).place.inj y z hy hz (by
            simp only [Bool.false_eq_true, if_false] at e
            omega)⟩
        · exact exLayerRoom dw)
    (by cases lim
        · exact rfl
        · show clipParams 1 0 (Buf.ofList [251, 9]) = some (-5, 9)
          decide)
    (Buf.ofList [0, 10]) (Buf.ofList [1, 3]) (Buf.ofList [1, 2]) (Buf.ofList [0, 1])
    (show Fits 4 2 _ by unfold Fits; decide) (show Fits 2 2 _ by unfold Fits; decide) (show Fits 1 2 _ by unfold Fits; decide) (show Fits 1 2 _ by unfold Fits; decide)
    (show rescaleEncodedSize 2 4 1 ≤ 16 by decide) (by decide) (show 2 + rescaleEncodedSize 1 4 1 ≤ 10 by decide)
    (exLayerDiff dw _ (by
      intro k h0 h1
      have : k = 0 ∨ k = 1 := by omega
      rcases this with rfl | rfl <;> decide))
  exact ⟨enc', o, s, val, h1, h2, h3, h4.elem [0, 0, 1, 0, 1] (show InShape [2, 4, 3, 1, 2] [0, 0, 1, 0, 1] by decide),
    h4.frame 48 (allIn (ns := [2, 4, 3, 1, 2]) (P := fun x => offset [24, 6, 2, 2, 1] x ≠ 48) (by decide)), h5 0 0 1 1 (show InShape [2, 4, 3, 1, 2] [0, 0, 1, 0, 1] by decide)⟩

/-- The run with limits, as computed by the model. -/
example : (exLayerEnc.bind fun enc =>
    (MapObj.new false 4 1 3 (dropGroup (exConvRun false).out) (parIt (dropGroup (exConvRun false).out).cfg 2 3) (dropGroup (exConvRun false).out) 0 0 2 (exZeros 10)).bind fun o =>
    (LayerHost.run .up (exConvRun false).gin (exConvRun false).gw (exConvRun false).gz enc 2 [24, 6, 2, 1] (exConvRun false).rounds
      ((exConvRun false).layer o (clipOf (exConvRun false) 0 4 0 (some (-5, 9))) (exZeros 8) (exZeros 10) (Buf.ofList [251, 9]))).map fun s => (s.status, s.gout.toList)) =
    some (.ok, [6, -4, 3, -5, 2, 4, -5, -5, -4, -5, -2, -3, 7, 1, 1, -5, 2, -5, 6, -5, 0, -5, 0, 1, 9, 3, 3, 9, 9, 1, 5, -2, 2, -5, 0,
      4, -1, -5, 4, 4, 9, 7, 1, -5, 1, 0, 9, 6, 77]) := by decide +kernel

/-- PRELU with limits. -/
example : ∃ enc' o s, ∃ val : List Int → Int, preluEncode (Buf.ofList [0, 10]) (Buf.ofList [1, 3]) (Buf.ofList [2, 5]) (Buf.ofList [1, 2]) (Buf.ofList [3, 4]) (Buf.ofList [0, 1]) (exZeros 22) = some enc' ∧
    MapObj.new true 4 1 4 (exConvRun false).out (TIt.start [] [] []) (exConvRun false).out 0 0 2 (exZeros 13) = some o ∧
    LayerHost.run .up (exConvRun false).gin (exConvRun false).gw (exConvRun false).gz enc' 2 [24, 6, 2, 1] (exConvRun false).rounds
      ((exConvRun false).layer o (clipOf (exConvRun false) 0 4 0 (some (-5, 9))) (exZeros 8) (exZeros 13) (Buf.ofList [251, 9])) = some s ∧
    s.gout.get 3 = val [0, 0, 1, 0, 1] ∧ ∃ v, Rescaled .up 8 (-9) 10 5 4 1 v ∧ val [0, 0, 1, 0, 1] = limited (some (-5, 9)) v := by
  obtain ⟨enc', o, s, val, h1, h2, h3, -, h4, h5⟩ := c75_prelu_layer_partial .up (exConvRun false) (exConvOk false) rfl 0 4 2 0 (exZeros 8) (exZeros 13)
    (Buf.ofList [251, 9]) (exZeros 22) (some (-5, 9)) (exLayerRoom false) (show clipParams 1 0 (Buf.ofList [251, 9]) = some (-5, 9) by decide)
    (Buf.ofList [0, 10]) (Buf.ofList [1, 3]) (Buf.ofList [2, 5]) (Buf.ofList [1, 2]) (Buf.ofList [3, 4]) (Buf.ofList [0, 1]) (TIt.start [] [] []) rfl
    ⟨rfl, rfl, rfl, rfl, rfl, rfl⟩
    (show Fits 4 2 _ by unfold Fits; decide) (show Fits 2 2 _ by unfold Fits; decide) (show Fits 2 2 _ by unfold Fits; decide) (show Fits 1 2 _ by unfold Fits; decide)
    (show Fits 1 2 _ by unfold Fits; decide) (show Fits 1 2 _ by unfold Fits; decide)
    (show preluEncodedSize 2 ≤ 22 by decide) (by decide) (show 2 + preluEncodedSize 1 ≤ 13 by decide)
    (exLayerDiff false _ (by
      intro k h0 h1
      have : k = 0 ∨ k = 1 := by omega
      rcases this with rfl | rfl <;> decide))
  have e : (exConvRun false).value 0 0 1 1 = -9 := by decide +kernel
  have h6 := h5 0 0 1 1 (show InShape [2, 4, 3, 1, 2] [0, 0, 1, 0, 1] by decide)
  obtain ⟨v, h7, h8⟩ := h6
  rw [e, if_neg (by decide)] at h7
  exact ⟨enc', o, s, val, h1, h2, h3, h4.elem [0, 0, 1, 0, 1] (show InShape [2, 4, 3, 1, 2] [0, 0, 1, 0, 1] by decide), v, h7, h8⟩

/-! ### Violations -/

/-- **Violation**: with a first tile that is smaller than the others (skew) the iterator without the group leaves the iterator of the convolution: the second
tile of the convolution has two batch elements from element 1, that of RESCALE and CLIP has two from element 2.  Hence the condition that the tiles have no skew. -/
theorem c75_skew_violated :
    let out := TIt.start (tileCfg [4, 1, 1, 1, 1] [2, 1, 1, 1, 1] (List.range 5) 1) [4, 1, 1, 1, 1] [1, 1, 1, 1, 1]
    ((out.at 1).getPos.eraseIdx 3, (out.at 1).sizes.eraseIdx 3) = ([1, 0, 0, 0], [2, 1, 1, 1]) ∧
    (((dropGroup out).at 1).getPos, ((dropGroup out).at 1).sizes) = ([2, 0, 0, 0], [2, 1, 1, 1]) := by decide +kernel

/-- **Violation**: nor does it keep the order of the dimensions: the convolution goes through the rows first, RESCALE and CLIP through the batch. -/
theorem c75_order_violated :
    let out := TIt.start (tileCfg [2, 2, 1, 1, 1] [1, 1, 1, 1, 1] [1, 0, 2, 3, 4] 0) [2, 2, 1, 1, 1] [2, 1, 1, 1, 1]
    (out.at 1).sizes.eraseIdx 3 = ((dropGroup out).at 1).sizes ∧
    (subTensor out.shape out.cfg (out.at 1).st).1.eraseIdx 3 ≠ (subTensor (dropGroup out).shape (dropGroup out).cfg ((dropGroup out).at 1).st).1 := by decide +kernel

end Mli.Rt
