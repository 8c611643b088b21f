import Verif.Model.PoolRuntime
import Verif.Props.Batch
import Verif.Lemmas.WinTiles

/-! # Pooling of one tile -/

namespace Mli.Rt

open Mli Mli.Spec

/-- What the pooling operations mean: `v` is the largest element, or the sum of the elements, of the input in the window. -/
def PoolMeaning (op : PoolOp) (X : Int → Int → Int) (ih iw kh kw sh sw pt pl y x v : Int) : Prop :=
  match op with
  | .max => IsWindowMax X ih iw kh kw sh sw pt pl y x v
  | .sum => v = windowSum X ih iw kh kw sh sw pt pl y x

theorem poolMeaning_unique {op : PoolOp} {X : Int → Int → Int} {ih iw kh kw sh sw pt pl y x a b : Int}
    (h : PoolMeaning op X ih iw kh kw sh sw pt pl y x a) (h' : PoolMeaning op X ih iw kh kw sh sw pt pl y x b) : a = b := by
  cases op with
  | max => exact isWindowMax_unique h h'
  | sum => exact h.trans h'.symm

theorem tapSum_congr {n k s p o : Int} {f f' : Int → Int} (h : ∀ r, 0 ≤ r ∧ r < n → f r = f' r) : tapSum n k s p o f = tapSum n k s p o f' := by
  unfold tapSum
  congr 1
  apply List.map_congr_left
  intro t _
  by_cases c : 0 ≤ tapCoord s p 1 o t ∧ tapCoord s p 1 o t < n
  · rw [if_pos c, if_pos c, h _ c]
  · rw [if_neg c, if_neg c]

/-- Only the elements inside of the input matter. -/
theorem poolMeaning_congr {op : PoolOp} {X Y : Int → Int → Int} {ih iw kh kw sh sw pt pl y x v : Int}
    (h : ∀ r q, (0 ≤ r ∧ r < ih) → (0 ≤ q ∧ q < iw) → X r q = Y r q) (hm : PoolMeaning op X ih iw kh kw sh sw pt pl y x v) :
    PoolMeaning op Y ih iw kh kw sh sw pt pl y x v := by
  cases op with
  | max =>
    obtain ⟨h1, i, j, hi, hj, h2, h3, h4⟩ := hm
    refine ⟨fun i j i0 i1 j0 j1 t0 t1 t2 t3 => ?_, i, j, hi, hj, h2, h3, ?_⟩
    · rw [← h _ _ ⟨t0, t1⟩ ⟨t2, t3⟩]; exact h1 i j i0 i1 j0 j1 t0 t1 t2 t3
    · rw [← h _ _ h2 h3]; exact h4
  | sum =>
    show v = _
    rw [show v = _ from hm]
    exact tapSum_congr fun r hr => tapSum_congr fun q hq => h r q hr hq

/-- One axis of a tile. -/
structure TileAxis (n k s p o : Int) : Prop where
  n1 : 1 ≤ n
  s1 : 1 ≤ s
  p0 : 0 ≤ p ∧ p < k
  o1 : 1 ≤ o
  before : p ≤ o * s
  behind : k ≤ n + p + s
  last : (o - 1) * s - p < n

theorem TileAxis.axis {n k s p o : Int} (h : TileAxis n k s p o) :
    Axis (n + min (o * s + k - s - n - p) 0) k s p (max (o * s + k - s - n - p) 0) o ∧
    ∀ y, 0 ≤ y → y < o → winLen (n + min (o * s + k - s - n - p) 0) k s p y = winLen n k s p y := by
  obtain ⟨n1, s1, ⟨p0, p1⟩, o1, h1, h2, h3⟩ := h
  have hos : s ≤ o * s := by nlinarith
  have e : (o - 1) * s = o * s - s := by ring
  refine ⟨⟨by omega, by omega, p1, by omega, by omega, by omega, o1, h1, by omega, by omega⟩, ?_⟩
  intro y y0 y1
  have : y * s ≤ (o - 1) * s := Int.mul_le_mul_of_nonneg_right (by omega) (by omega)
  have : 0 ≤ y * s := Int.mul_nonneg y0 (by omega)
  unfold winLen
  generalize y * s = v at *
  omega

/-- The pooling traversal on tile tensors: only what the tiles of a larger tensor have. -/
theorem poolHwc_laid (K : WinOp) (val : List Int → Int) {tin tout : Tensor} {g : Geo} {src dst : Buf} {ii : Prv} {ih iw ic oh ow i1 i2 o1 o2 : Int}
    (hdi : tin.dims = [⟨ih, i1⟩, ⟨iw, i2⟩, ⟨ic, 1⟩]) (hdo : tout.dims = [⟨oh, o1⟩, ⟨ow, o2⟩, ⟨ic, 1⟩])
    (ha : TileAxis ih g.kh g.sh g.pt oh) (hw : TileAxis iw g.kw g.sw g.pl ow)
    (hb : ∀ y, InShape [oh, ow, ic] y → 0 ≤ tout.addr y ∧ tout.addr y < dst.size)
    (hinj : ∀ y z, InShape [oh, ow, ic] y → InShape [oh, ow, ic] z → tout.addr y = tout.addr z → y = z) (hii : prvHwc tin = some ii)
    (hK : ∀ y x c, InShape [oh, ow, ic] [y, x, c] → ∀ (q rs cs : Int) (R C : Nat), 1 ≤ R → 1 ≤ C → R * C ≤ g.kh * g.kw →
      (rect q rs cs R C).Perm (winRect g ii (y, x, c)) → K src q R C rs cs = some (val [y, x, c])) :
    ∃ dst', poolHwc K src g tin tout dst = some dst' ∧ tout.Writes val dst dst' := by
  have tto : tout.strides = [o1, o2, 1] := by simp [Tensor.strides, hdo]
  have so : tout.shape = [oh, ow, ic] := by simp [Tensor.shape, hdo]
  obtain ⟨A1, L1⟩ := ha.axis
  obtain ⟨A2, L2⟩ := hw.axis
  have hii' : ii = { ptr := tin.base, width := iw, height := ih, ch := ic, col := i2, row := i1 } := by
    simp only [prvHwc, hdi, Option.some.injEq] at hii; exact hii.symm
  unfold poolHwc
  simp only [hii, Option.bind_eq_bind, Option.bind_some]
  simp only [prvHwc, hdo, Option.bind_some]
  generalize hO : ({ ptr := tout.base, width := ow, height := oh, ch := ic, col := o2, row := o1 } : Prv) = o
  have hw' : o.width = ow := by rw [← hO]
  have hh' : o.height = oh := by rw [← hO]
  have hiw : ii.width = iw := by rw [hii']
  have hih : ii.height = ih := by rw [hii']
  simp only [hiw, hih]
  rw [show (if ow * g.sw + g.kw - g.sw - iw - g.pl < 0 then iw + (ow * g.sw + g.kw - g.sw - iw - g.pl) else iw) =
      iw + min (ow * g.sw + g.kw - g.sw - iw - g.pl) 0 by split <;> omega,
    show (if oh * g.sh + g.kh - g.sh - ih - g.pt < 0 then ih + (oh * g.sh + g.kh - g.sh - ih - g.pt) else ih) =
      ih + min (oh * g.sh + g.kh - g.sh - ih - g.pt) 0 by split <;> omega]
  have addrEq : ∀ y x c : Int, prvAddr o (y, x, c) = tout.addr [y, x, c] := by
    intro y x c
    simp only [prvAddr, Tensor.addr, tto, offset, ← hO]
    ring
  have inEq : ∀ y x c : Int, prvIn o (y, x, c) ↔ InShape [oh, ow, ic] [y, x, c] := by
    intro y x c
    simp only [prvIn, InShape, ← hO]
    tauto
  obtain ⟨d', h1, h2⟩ := poolWrapper_whole (K := K) (src := src) (d := dst)
    (g := { g with pr := max (ow * g.sw + g.kw - g.sw - iw - g.pl) 0, pb := max (oh * g.sh + g.kh - g.sh - ih - g.pt) 0 })
    (i := { ii with width := iw + min (ow * g.sw + g.kw - g.sw - iw - g.pl) 0, height := ih + min (oh * g.sh + g.kh - g.sh - ih - g.pt) 0 })
    (o := o) (val := fun p => val [p.1, p.2.1, p.2.2])
    { ah := by rw [hh']; exact A1
      aw := by rw [hw']; exact A2
      ch := by rw [← hO, hii']
      coh := by
        rintro ⟨y, x, c⟩ ⟨y', x', c'⟩ h1 h2 e
        rw [addrEq, addrEq] at e
        have := hinj [y, x, c] [y', x', c'] ((inEq _ _ _).1 h1) ((inEq _ _ _).1 h2) e
        simp only []
        rw [this]
      bnd := by
        rintro ⟨y, x, c⟩ h1
        rw [addrEq]
        exact hb _ ((inEq _ _ _).1 h1)
      win := by
        rintro ⟨y, x, c⟩ h1 q rs cs R C hR hC hRC hp
        refine hK y x c ((inEq _ _ _).1 h1) q rs cs R C hR hC hRC ?_
        refine hp.trans (List.Perm.of_eq ?_)
        simp only [winRect]
        rw [L1 y h1.1.1 (by rw [← hh']; exact h1.1.2), L2 x h1.2.1.1 (by rw [← hw']; exact h1.2.1.2), hiw, hih] }
  refine ⟨d', h1, h2.size, ?_, ?_⟩
  · intro is his
    rw [so] at his
    obtain ⟨y, x, c, rfl⟩ : ∃ y x c, is = [y, x, c] := by
      match is, his with
      | [y, x, c], _ => exact ⟨y, x, c, rfl⟩
    have := h2.hit (y, x, c) ((inEq _ _ _).2 his)
    rwa [addrEq] at this
  · intro a ha
    apply h2.frame
    rintro ⟨y, x, c⟩ hp
    rw [addrEq]
    exact ha _ (by rw [so]; exact (inEq _ _ _).1 hp)

/-- The window operation of a kernel. -/
def PoolOp.kernel : PoolOp → WinOp
  | .max => reduceMax
  | .sum => sumOp

/-- One batch element of a tile. -/
theorem pool_laid (op : PoolOp) {tin tout : Tensor} {g : Geo} {src dst : Buf} {ih iw ic oh ow i1 i2 o1 o2 : Int}
    (hdi : tin.dims = [⟨ih, i1⟩, ⟨iw, i2⟩, ⟨ic, 1⟩]) (hdo : tout.dims = [⟨oh, o1⟩, ⟨ow, o2⟩, ⟨ic, 1⟩])
    (ha : TileAxis ih g.kh g.sh g.pt oh) (hw : TileAxis iw g.kw g.sw g.pl ow)
    (hi : ∀ y, InShape [ih, iw, ic] y → 0 ≤ tin.addr y ∧ tin.addr y < src.size)
    (hb : ∀ y, InShape [oh, ow, ic] y → 0 ≤ tout.addr y ∧ tout.addr y < dst.size)
    (hinj : ∀ y z, InShape [oh, ow, ic] y → InShape [oh, ow, ic] z → tout.addr y = tout.addr z → y = z)
    (hk : g.kh < 256 ∧ g.kw < 256) (hr : op = .sum → ∀ y, InShape [ih, iw, ic] y → InRange 8 (src.get (tin.addr y))) :
    ∃ dst', poolHwc op.kernel src g tin tout dst = some dst' ∧ dst'.size = dst.size ∧
      (∀ y x c, InShape [oh, ow, ic] [y, x, c] →
        PoolMeaning op (fun r q => src.get (tin.addr [r, q, c])) ih iw g.kh g.kw g.sh g.sw g.pt g.pl y x (dst'.get (tout.addr [y, x, c]))) ∧
      ∀ a, (∀ y, InShape [oh, ow, ic] y → tout.addr y ≠ a) → dst'.get a = dst.get a := by
  have so : tout.shape = [oh, ow, ic] := by simp [Tensor.shape, hdo]
  have si : tin.shape = [ih, iw, ic] := by simp [Tensor.shape, hdi]
  have hin : innerOne tin = true := by simp [innerOne, Tensor.strides, hdi]
  obtain ⟨ii, hii⟩ : ∃ ii, prvHwc tin = some ii := by simp [prvHwc, hdi]
  have hii' : ii = { ptr := tin.base, width := iw, height := ih, ch := ic, col := i2, row := i1 } := by
    simp only [prvHwc, hdi, Option.some.injEq] at hii; exact hii.symm
  have hsz : ii.height = ih ∧ ii.width = iw := by rw [hii']; exact ⟨rfl, rfl⟩
  have hwin : ∀ y x c a, InShape [oh, ow, ic] [y, x, c] → a ∈ winRect g ii (y, x, c) → ∃ is, InShape [ih, iw, ic] is ∧ a = tin.addr is := by
    intro y x c a hs ha
    obtain ⟨i, j, _, _, h1, h2, rfl⟩ := (mem_winRect si hin hii).1 ha
    exact ⟨[_, _, c], ⟨h1, h2, hs.2.2.1, trivial⟩, rfl⟩
  have hlen : ∀ y x c, InShape [oh, ow, ic] [y, x, c] →
      1 ≤ (winLen ii.height g.kh g.sh g.pt y).toNat ∧ 1 ≤ (winLen ii.width g.kw g.sw g.pl x).toNat := by
    rintro y x c ⟨⟨y0, y1⟩, ⟨x0, x1⟩, -⟩
    obtain ⟨A1, L1⟩ := ha.axis
    obtain ⟨A2, L2⟩ := hw.axis
    have w1 := (A1.win y0 y1).2.1
    have w2 := (A2.win x0 x1).2.1
    rw [L1 y y0 y1] at w1
    rw [L2 x x0 x1] at w2
    rw [hsz.1, hsz.2]
    omega
  cases op with
  | max =>
    have hc : ∀ y x c, InShape [oh, ow, ic] [y, x, c] → ∃ v, ∀ (q rs cs : Int) (R C : Nat), 1 ≤ R → 1 ≤ C →
        (rect q rs cs R C).Perm (winRect g ii (y, x, c)) → reduceMax src q R C rs cs = some v ∧
        (∀ a ∈ winRect g ii (y, x, c), src.get a ≤ v) ∧ ∃ a ∈ winRect g ii (y, x, c), src.get a = v := by
      intro y x c hs
      have hbb : ∀ a ∈ winRect g ii (y, x, c), 0 ≤ a ∧ a < src.size := by
        intro a ha
        obtain ⟨is, h1, rfl⟩ := hwin y x c a hs ha
        exact hi _ h1
      have all : ∀ (q rs cs : Int) (R C : Nat), 1 ≤ R → 1 ≤ C → (rect q rs cs R C).Perm (winRect g ii (y, x, c)) →
          ∃ v, reduceMax src q R C rs cs = some v ∧ (∀ a ∈ winRect g ii (y, x, c), src.get a ≤ v) ∧
            ∃ a ∈ winRect g ii (y, x, c), src.get a = v := by
        intro q rs cs R C hR hC hp
        obtain ⟨v, h1, h2, a, h3, h4⟩ := reduceMax_spec src q rs cs R C hR hC (fun a ha => hbb a (hp.mem_iff.1 ha))
        exact ⟨v, h1, fun a ha => h2 a (hp.mem_iff.2 ha), a, hp.mem_iff.1 h3, h4⟩
      obtain ⟨w1, w2⟩ := hlen y x c hs
      obtain ⟨v, h1, h2, a, h3, h4⟩ := all _ _ _ _ _ w1 w2 (List.Perm.refl _)
      refine ⟨v, ?_⟩
      intro q' rs' cs' R' C' hR' hC' hp'
      obtain ⟨v', h1', h2', a', h3', h4'⟩ := all q' rs' cs' R' C' hR' hC' hp'
      have : v = v' := by
        have := h2 a' h3'
        have := h2' a h3
        omega
      subst this
      exact ⟨h1', h2', a', h3', h4'⟩
    choose! val hval using hc
    obtain ⟨dst', r1, r2⟩ := poolHwc_laid reduceMax (fun is => val (is.getD 0 0) (is.getD 1 0) (is.getD 2 0)) hdi hdo ha hw hb hinj hii
      (by
        intro y x c hs q rs cs R C hR hC _ hp
        exact (hval y x c hs q rs cs R C hR hC hp).1)
    refine ⟨dst', r1, r2.size, ?_, fun a ha' => r2.frame a (by rw [so]; exact ha')⟩
    intro y x c hs
    rw [r2.elem [y, x, c] (by rw [so]; exact hs)]
    obtain ⟨w1, w2⟩ := hlen y x c hs
    obtain ⟨-, h2, a, h3, h4⟩ := hval y x c hs _ _ _ _ _ w1 w2 (List.Perm.refl _)
    refine ⟨?_, ?_⟩
    · intro i j i0 i1 j0 j1 t0 t1 t2 t3
      exact h2 _ ((mem_winRect si hin hii).2 ⟨i, j, ⟨i0, i1⟩, ⟨j0, j1⟩, ⟨t0, t1⟩, ⟨t2, t3⟩, rfl⟩)
    · obtain ⟨i, j, q1, q2, q3, q4, rfl⟩ := (mem_winRect si hin hii).1 h3
      exact ⟨i, j, q1, q2, q3, q4, h4⟩
  | sum =>
    have hk0 : 0 ≤ g.kh := by have := ha.p0; omega
    have hk1 : 0 ≤ g.kw := by have := hw.p0; omega
    have hkk : g.kh * g.kw ≤ 65025 := by nlinarith
    obtain ⟨dst', r1, r2⟩ := poolHwc_laid sumOp (fun is => windowSum (fun r q => src.get (tin.addr [r, q, is.getD 2 0])) ih iw g.kh g.kw g.sh g.sw
      g.pt g.pl (is.getD 0 0) (is.getD 1 0)) hdi hdo ha hw hb hinj hii (by
      intro y x c hs q rs cs R C _ _ hRC hp
      have g3 : ∀ a ∈ rect q rs cs R C, (0 ≤ a ∧ a < src.size) ∧ InRange 8 (src.get a) := by
        intro a ha
        obtain ⟨is, h1, rfl⟩ := hwin y x c a hs (hp.mem_iff.1 ha)
        exact ⟨hi _ h1, hr rfl _ h1⟩
      have g2 : ((rect q rs cs R C).map src.get).sum = windowSum (fun r q => src.get (tin.addr [r, q, c])) ih iw g.kh g.kw g.sh g.sw g.pt g.pl y x := by
        rw [← winRect_sum hk0 hk1 si hin hii src y x c]
        exact (hp.map _).sum_eq
      unfold sumOp
      rw [aslFx_zero (by omega), winAcc_spec 32 1 0 (lo 8) (Spec.hi 8) src q rs cs R C (by omega) g3 (by decide) (by decide)
        (by simp only [lo]; omega) (by simp only [Spec.hi]; omega), g2]
      simp only [Int.zero_add, Int.one_mul]
      rfl)
    refine ⟨dst', r1, r2.size, ?_, fun a ha' => r2.frame a (by rw [so]; exact ha')⟩
    intro y x c hs
    rw [r2.elem [y, x, c] (by rw [so]; exact hs)]
    rfl

/-- All batch elements of a tile. -/
theorem pool_batch (op : PoolOp) {tin tout : Tensor} {g : Geo} {src dst : Buf} {nb ih iw ic oh ow i0 i1 i2 o0 o1 o2 : Int}
    (hdi : tin.dims = [⟨ih, i1⟩, ⟨iw, i2⟩, ⟨ic, 1⟩]) (hdo : tout.dims = [⟨oh, o1⟩, ⟨ow, o2⟩, ⟨ic, 1⟩])
    (ha : TileAxis ih g.kh g.sh g.pt oh) (hw : TileAxis iw g.kw g.sw g.pl ow)
    (hi : ∀ y, InShape [nb, ih, iw, ic] y → 0 ≤ tin.base + offset [i0, i1, i2, 1] y ∧ tin.base + offset [i0, i1, i2, 1] y < src.size)
    (hb : ∀ y, InShape [nb, oh, ow, ic] y → 0 ≤ tout.base + offset [o0, o1, o2, 1] y ∧ tout.base + offset [o0, o1, o2, 1] y < dst.size)
    (hinj : ∀ y z, InShape [nb, oh, ow, ic] y → InShape [nb, oh, ow, ic] z → offset [o0, o1, o2, 1] y = offset [o0, o1, o2, 1] z → y = z)
    (hk : g.kh < 256 ∧ g.kw < 256)
    (hr : op = .sum → ∀ y, InShape [nb, ih, iw, ic] y → InRange 8 (src.get (tin.base + offset [i0, i1, i2, 1] y))) :
    ∃ dst', forRange nb.toNat (fun (b : Nat) d => poolHwc op.kernel src g (tin.shift (b * i0)) (tout.shift (b * o0)) d) dst = some dst' ∧
      dst'.size = dst.size ∧
      (∀ b y x c, InShape [nb, oh, ow, ic] [b, y, x, c] →
        PoolMeaning op (fun r q => src.get (tin.base + offset [i0, i1, i2, 1] [b, r, q, c])) ih iw g.kh g.kw g.sh g.sw g.pt g.pl y x
          (dst'.get (tout.base + offset [o0, o1, o2, 1] [b, y, x, c]))) ∧
      ∀ a, (∀ y, InShape [nb, oh, ow, ic] y → tout.base + offset [o0, o1, o2, 1] y ≠ a) → dst'.get a = dst.get a := by
  have ea : ∀ (t : Tensor) (h w c s0 s1 s2 : Int) (b : Nat) (y : List Int), t.dims = [⟨h, s1⟩, ⟨w, s2⟩, ⟨c, 1⟩] →
      (t.shift (b * s0)).addr y = t.base + offset [s0, s1, s2, 1] ((b : Int) :: y) := by
    intro t h w c s0 s1 s2 b y hd
    simp only [Tensor.addr, Tensor.shift, Tensor.strides, hd, List.map_cons, List.map_nil, offset]
    ring
  have eb : ∀ (b : Nat) (n : Int) (ns y : List Int), (b : Int) < n → InShape ns y → InShape (n :: ns) ((b : Int) :: y) := fun b n ns y hb hy => ⟨⟨by omega, hb⟩, hy⟩
  obtain ⟨d', h1, h2⟩ := forRange_inv (n := nb.toNat)
    (f := fun (b : Nat) d => poolHwc op.kernel src g (tin.shift (b * i0)) (tout.shift (b * o0)) d) (s := dst)
    (fun k d => d.size = dst.size ∧
      (∀ b : Nat, b < k → (b : Int) < nb → ∀ y x c, InShape [oh, ow, ic] [y, x, c] →
        PoolMeaning op (fun r q => src.get (tin.base + offset [i0, i1, i2, 1] [(b : Int), r, q, c])) ih iw g.kh g.kw g.sh g.sw g.pt g.pl y x
          (d.get (tout.base + offset [o0, o1, o2, 1] [(b : Int), y, x, c]))) ∧
      ∀ a, (∀ y, InShape [nb, oh, ow, ic] y → tout.base + offset [o0, o1, o2, 1] y ≠ a) → d.get a = dst.get a)
    ⟨rfl, fun b hb => by omega, fun _ _ => rfl⟩
    (by
      rintro b d hbn ⟨p1, p2, p3⟩
      have hbn' : (b : Int) < nb := by omega
      obtain ⟨d', q1, q2, q3, q4⟩ := pool_laid op (tin := tin.shift (b * i0)) (tout := tout.shift (b * o0)) (g := g) (src := src) (dst := d)
        hdi hdo ha hw
        (fun y hy => by rw [ea tin ih iw ic i0 i1 i2 b y hdi]; exact hi _ (eb b nb _ y hbn' hy))
        (fun y hy => by rw [ea tout oh ow ic o0 o1 o2 b y hdo, p1]; exact hb _ (eb b nb _ y hbn' hy))
        (fun y z hy hz e => by
          rw [ea tout oh ow ic o0 o1 o2 b y hdo, ea tout oh ow ic o0 o1 o2 b z hdo] at e
          have := hinj _ _ (eb b nb _ y hbn' hy) (eb b nb _ z hbn' hz) (by omega)
          exact (List.cons.inj this).2)
        hk (fun ho y hy => by rw [ea tin ih iw ic i0 i1 i2 b y hdi]; exact hr ho _ (eb b nb _ y hbn' hy))
      refine ⟨d', q1, by omega, ?_, ?_⟩
      · intro b' hb' hb'' y x c hs
        by_cases e : b' = b
        · subst e
          have := q3 y x c hs
          rw [ea tout oh ow ic o0 o1 o2 b' _ hdo] at this
          simpa only [ea tin ih iw ic i0 i1 i2 b' _ hdi] using this
        · rw [q4 _ (fun z hz e' => by
            rw [ea tout oh ow ic o0 o1 o2 b z hdo] at e'
            have := hinj _ _ (eb b nb _ z hbn' hz) (eb b' nb _ _ hb'' hs) (by omega)
            exact e (by have := (List.cons.inj this).1; omega))]
          exact p2 b' (by omega) hb'' y x c hs
      · intro a ha
        rw [q4 a (fun y hy => by rw [ea tout oh ow ic o0 o1 o2 b y hdo]; exact ha _ (eb b nb _ y hbn' hy))]
        exact p3 a ha)
  obtain ⟨p1, p2, p3⟩ := h2
  refine ⟨d', h1, p1, ?_, p3⟩
  intro b y x c hs
  obtain ⟨⟨b0, b1⟩, hs'⟩ := hs
  obtain ⟨b, rfl⟩ := Int.eq_ofNat_of_zero_le b0
  exact p2 b (by omega) b1 y x c hs'

/-- Local coordinates to global ones along one axis. -/
structure Shifted (n k s p : Int) (opos osz ipos isz p' : Int) : Prop where
  low : 0 ≤ ipos
  high : ipos + isz ≤ n
  eq : ipos = opos * s - p + p'
  field : ∀ o t, opos ≤ o → o < opos + osz → 0 ≤ t → t < k → 0 ≤ o * s + t - p → o * s + t - p < n →
    ipos ≤ o * s + t - p ∧ o * s + t - p < ipos + isz

theorem Shifted.coord {n k s p opos osz ipos isz p' : Int} (h : Shifted n k s p opos osz ipos isz p') (y t : Int) :
    tapCoord s p 1 (y + opos) t = tapCoord s p' 1 y t + ipos := by
  have := h.eq
  unfold tapCoord
  have e : (y + opos) * s = y * s + opos * s := by ring
  omega

theorem Shifted.inside {n k s p opos osz ipos isz p' : Int} (h : Shifted n k s p opos osz ipos isz p') {y t : Int} (hy : 0 ≤ y ∧ y < osz)
    (ht : 0 ≤ t ∧ t < k) :
    (0 ≤ tapCoord s p 1 (y + opos) t ∧ tapCoord s p 1 (y + opos) t < n) ↔ (0 ≤ tapCoord s p' 1 y t ∧ tapCoord s p' 1 y t < isz) := by
  have hc := h.coord y t
  have h1 := h.low
  have h2 := h.high
  constructor
  · rintro ⟨a, b⟩
    have e : tapCoord s p 1 (y + opos) t = (y + opos) * s + t - p := by unfold tapCoord; ring
    have := h.field (y + opos) t (by omega) (by omega) ht.1 ht.2 (by omega) (by omega)
    omega
  · rintro ⟨a, b⟩
    omega

theorem Shifted.tapSum {n k s p opos osz ipos isz p' : Int} (h : Shifted n k s p opos osz ipos isz p') {y : Int} (hy : 0 ≤ y ∧ y < osz) (f : Int → Int) :
    tapSum isz k s p' y (fun r => f (r + ipos)) = Spec.tapSum n k s p (y + opos) f := by
  unfold Spec.tapSum
  congr 1
  apply List.map_congr_left
  intro t ht
  rw [List.mem_range] at ht
  have hi := h.inside hy (t := t) ⟨by omega, by omega⟩
  by_cases hc : 0 ≤ tapCoord s p 1 (y + opos) t ∧ tapCoord s p 1 (y + opos) t < n
  · rw [if_pos hc, if_pos (hi.mp hc), h.coord]
  · rw [if_neg hc, if_neg (fun c => hc (hi.mpr c))]

/-- The window of a tile is the window of the whole tensor. -/
theorem poolMeaning_shift {op : PoolOp} {X : Int → Int → Int} {ih iw kh kw sh sw pt pl oy osy iy isy pt' ox osx ix isx pl' y x v : Int}
    (hh : Shifted ih kh sh pt oy osy iy isy pt') (hw : Shifted iw kw sw pl ox osx ix isx pl') (hy : 0 ≤ y ∧ y < osy) (hx : 0 ≤ x ∧ x < osx)
    (h : PoolMeaning op (fun r q => X (r + iy) (q + ix)) isy isx kh kw sh sw pt' pl' y x v) :
    PoolMeaning op X ih iw kh kw sh sw pt pl (y + oy) (x + ox) v := by
  cases op with
  | max =>
    obtain ⟨h1, i, j, hi, hj, h2, h3, h4⟩ := h
    refine ⟨?_, i, j, hi, hj, (hh.inside hy hi).mpr h2, (hw.inside hx hj).mpr h3, ?_⟩
    · intro i j i0 i1 j0 j1 t0 t1 t2 t3
      obtain ⟨a, b⟩ := (hh.inside hy ⟨i0, i1⟩).mp ⟨t0, t1⟩
      obtain ⟨c, d⟩ := (hw.inside hx ⟨j0, j1⟩).mp ⟨t2, t3⟩
      rw [hh.coord, hw.coord]
      exact h1 i j i0 i1 j0 j1 a b c d
    · rw [hh.coord, hw.coord]; exact h4
  | sum =>
    show v = _
    rw [show v = _ from h]
    unfold windowSum
    rw [← hh.tapSum hy]
    congr 1
    funext r
    exact hw.tapSum hx _

end Mli.Rt
