import Verif.Lemmas.Window
import Verif.Props.Lut

/-!
# Properties of the pooling kernels (C34, C35)
-/

namespace Mli

open Spec

/-! ## C35: window clipping -/

/-- One axis of the clipping. -/
theorem clip_axis (n k s p d o j : Int) (hd : 1 ≤ d) :
    (ceilDiv (-min (o * s - p) 0) d ≤ j ↔ 0 ≤ o * s - p + j * d) ∧
    (j < k - ceilDiv (-min (n - (o * s - p + ((k - 1) * d + 1))) 0) d ↔ o * s - p + j * d < n ∨ k ≤ j ∧ False) ∨ j < 0 ∨ k ≤ j := by
  by_cases hj : 0 ≤ j ∧ j < k
  · left
    constructor
    · rw [ceilDiv_le_iff (by omega) (by omega)]
      have : 0 ≤ j * d := Int.mul_nonneg hj.1 (by omega)
      omega
    · have h1 := ceilDiv_le_iff (a := -min (n - (o * s - p + ((k - 1) * d + 1))) 0) (b := d) (i := k - 1 - j)
        (by omega) (by omega)
      have e : (k - 1 - j) * d = (k - 1) * d - j * d := by ring
      have e2 : 0 ≤ (k - 1 - j) * d := Int.mul_nonneg (by omega) (by omega)
      omega
  · right; omega

/-- C35: the taps `top, …, kernel_height - bottom - 1` (and likewise for the columns) that remain
after clipping are exactly those whose input coordinate is inside of the input, and the input
position of the first of them is `in_top` behind the unclipped one. -/
theorem c35_valid_area (y x ih iw kh kw sh sw pl pt dh dw : Int) (hdh : 1 ≤ dh) (hdw : 1 ≤ dw) :
    let c := validArea y x ih iw kh kw sh sw pl pt dh dw
    (∀ i, 0 ≤ i → i < kh → ((c.top ≤ i ∧ i < kh - c.bottom) ↔
      (0 ≤ tapCoord sh pt dh y i ∧ tapCoord sh pt dh y i < ih))) ∧
    (∀ j, 0 ≤ j → j < kw → ((c.left ≤ j ∧ j < kw - c.right) ↔
      (0 ≤ tapCoord sw pl dw x j ∧ tapCoord sw pl dw x j < iw))) ∧
    (y * sh - pt + c.inTop = tapCoord sh pt dh y c.top ∧ x * sw - pl + c.inLeft = tapCoord sw pl dw x c.left) ∧
    0 ≤ c.top ∧ 0 ≤ c.bottom ∧ 0 ≤ c.left ∧ 0 ≤ c.right := by
  have key : ∀ (n k s p d o : Int), 1 ≤ d → ∀ j, 0 ≤ j → j < k →
      ((ceilDiv (-min (o * s - p) 0) d ≤ j ∧
        j < k - ceilDiv (-min (n - (o * s - p + ((k - 1) * d + 1))) 0) d) ↔
      (0 ≤ tapCoord s p d o j ∧ tapCoord s p d o j < n)) := by
    intro n k s p d o hd j h0 h1
    unfold tapCoord
    rcases clip_axis n k s p d o j hd with ⟨ha, hb⟩ | h | h
    · rw [ha, hb]; simp
    · omega
    · omega
  have nn : ∀ a d : Int, 1 ≤ d → 0 ≤ ceilDiv (-min a 0) d := fun a d hd => ceilDiv_nonneg (by omega) (by omega)
  by_cases h1 : dh = 1 ∧ dw = 1
  · obtain ⟨rfl, rfl⟩ := h1
    have kh' := key ih kh sh pt 1 y (by omega)
    have kw' := key iw kw sw pl 1 x (by omega)
    simp only [ceilDiv_one, Int.mul_one, Int.sub_add_cancel] at kh' kw'
    simp only [validArea, and_self, if_true]
    refine ⟨kh', kw', ⟨by unfold tapCoord; omega, by unfold tapCoord; omega⟩, by omega, by omega, by omega, by omega⟩
  · simp only [validArea, if_neg h1]
    exact ⟨key ih kh sh pt dh y hdh, key iw kw sw pl dw x hdw, ⟨rfl, rfl⟩, nn _ _ hdh, nn _ _ hdh, nn _ _ hdw, nn _ _ hdw⟩

/-- A dilated window that sticks out on both sides: taps 1 and 2 of four remain. -/
example : let c := validArea 0 0 3 3 4 4 1 1 2 2 2 2
    c.top = 1 ∧ c.bottom = 1 ∧ c.inTop = 2 ∧ (∀ i, 0 ≤ i → i < 4 →
      ((1 ≤ i ∧ i < 3) ↔ (0 ≤ tapCoord 1 2 2 0 i ∧ tapCoord 1 2 2 0 i < 3))) := by
  refine ⟨by decide, by decide, by decide, fun i _ _ => by unfold tapCoord; omega⟩

/-! ## The traversal of the output -/

/-- The addresses in the clipped window of output position `(y, x, c)`. -/
def winRect (g : Geo) (i : Prv) (p : Int × Int × Int) : List Int :=
  rect (i.ptr + i.row * winLo g.sh g.pt p.1 + i.col * winLo g.sw g.pl p.2.1 + p.2.2) i.row i.col
    (winLen i.height g.kh g.sh g.pt p.1).toNat (winLen i.width g.kw g.sw g.pl p.2.1).toNat

/-- Address of output position `(y, x, c)`. -/
def prvAddr (o : Prv) (p : Int × Int × Int) : Int := o.ptr + o.row * p.1 + o.col * p.2.1 + p.2.2

/-- Output positions. -/
def prvIn (o : Prv) (p : Int × Int × Int) : Prop :=
  (0 ≤ p.1 ∧ p.1 < o.height) ∧ (0 ≤ p.2.1 ∧ p.2.1 < o.width) ∧ (0 ≤ p.2.2 ∧ p.2.2 < o.ch)

section skeleton
variable {ι : Type} {addr val : ι → Int} {ok : ι → Prop} (hc : Coherent addr val ok)
include hc

theorem poolPos_emits (K : WinOp) (src : Buf) (g : Geo) (i o : Prv) (H W : Int) (c : Comp) (φ : Nat → ι) (d : Buf)
    (hok : ∀ ch : Nat, ch < i.ch.toNat → ok (φ ch))
    (haddr : ∀ ch : Nat, ch < i.ch.toNat → addr (φ ch) = o.ptr + o.row * H + o.col * W + ch)
    (hb : ∀ ch : Nat, ch < i.ch.toNat → 0 ≤ addr (φ ch) ∧ addr (φ ch) < d.size)
    (ht : H * g.sh - g.pt + c.inTop = winLo g.sh g.pt H) (hl : W * g.sw - g.pl + c.inLeft = winLo g.sw g.pl W)
    (hr : g.kh - c.top - c.bottom = winLen i.height g.kh g.sh g.pt H)
    (hcl : g.kw - c.right - c.left = winLen i.width g.kw g.sw g.pl W)
    (hK : ∀ ch : Nat, ch < i.ch.toNat →
      K src (i.ptr + i.row * winLo g.sh g.pt H + i.col * winLo g.sw g.pl W + ch)
        (winLen i.height g.kh g.sh g.pt H) (winLen i.width g.kw g.sw g.pl W) i.row i.col = some (val (φ ch))) :
    ∃ d', poolPos K src g i o H W c d = some d' ∧
      Emits addr val (fun p => ∃ ch : Nat, ch < i.ch.toNat ∧ p = φ ch) d d' := by
  unfold poolPos
  simp only [ht, hl, hr, hcl]
  refine forRange_emits hc i.ch.toNat _ (fun ch p => p = φ ch) d (fun ch p h1 h2 => h2 ▸ hok ch h1) ?_
  intro ch d' hch hd'
  rw [hK ch hch, Option.bind_some, ← haddr ch hch]
  exact Emits.one addr val (φ ch) d' (by rw [hd']; exact hb ch hch)

/-- The border loop over rows `0 … re-1` and columns `0 … ce-1`. -/
theorem poolPad_emits (K : WinOp) (src : Buf) (re ce : Int) (g : Geo) (i o : Prv) (φ : Nat → Nat → Nat → ι) (d : Buf)
    (hkw : 1 ≤ g.kw)
    (hok : ∀ H W ch : Nat, H < re.toNat → W < ce.toNat → ch < i.ch.toNat → ok (φ H W ch))
    (haddr : ∀ H W ch : Nat, H < re.toNat → W < ce.toNat → ch < i.ch.toNat →
      addr (φ H W ch) = o.ptr + o.row * H + o.col * W + ch)
    (hb : ∀ H W ch : Nat, H < re.toNat → W < ce.toNat → ch < i.ch.toNat →
      0 ≤ addr (φ H W ch) ∧ addr (φ H W ch) < d.size)
    (hin : ∀ W : Nat, W < ce.toNat → g.kw ≤ W + 1 → g.kw < ce → 0 ≤ W * g.sw - g.pl ∧ W * g.sw - g.pl + g.kw ≤ i.width)
    (hK : ∀ H W ch : Nat, H < re.toNat → W < ce.toNat → ch < i.ch.toNat →
      K src (i.ptr + i.row * winLo g.sh g.pt H + i.col * winLo g.sw g.pl W + ch)
        (winLen i.height g.kh g.sh g.pt H) (winLen i.width g.kw g.sw g.pl W) i.row i.col = some (val (φ H W ch))) :
    ∃ d', poolPad K src 0 re 0 ce g i o d = some d' ∧
      Emits addr val (fun p => ∃ H W ch : Nat, H < re.toNat ∧ W < ce.toNat ∧ ch < i.ch.toNat ∧ p = φ H W ch) d d' := by
  unfold poolPad
  simp only [Int.sub_zero, Int.zero_add]
  have hva : ∀ H W : Int,
      let c := validArea H W i.height i.width g.kh g.kw g.sh g.sw g.pl g.pt 1 1
      (H * g.sh - g.pt + c.inTop = winLo g.sh g.pt H) ∧ (W * g.sw - g.pl + c.inLeft = winLo g.sw g.pl W) ∧
      (g.kh - c.top - c.bottom = winLen i.height g.kh g.sh g.pt H) ∧
      (g.kw - c.right - c.left = winLen i.width g.kw g.sw g.pl W) := by
    intro H W
    simp only [validArea, and_self, if_true, winLo, winLen]
    refine ⟨by omega, by omega, by omega, by omega⟩
  obtain ⟨c, d', h1, _, h2⟩ := forRange_emits_inv hc re.toNat
    (fun (h : Nat) (s : Comp × Buf) =>
      (forRange (min g.kw ce).toNat (fun (w : Nat) (s : Comp × Buf) =>
        (poolPos K src g i o h w (validArea h w i.height i.width g.kh g.kw g.sh g.sw g.pl g.pt 1 1) s.2).map fun d =>
          (validArea h w i.height i.width g.kh g.kw g.sh g.sw g.pl g.pt 1 1, d)) s).bind fun s =>
      forRange (ce - max 0 (min g.kw ce)).toNat (fun (w : Nat) (s : Comp × Buf) =>
        (poolPos K src g i o h (max 0 (min g.kw ce) + w) s.1 s.2).map fun d => (s.1, d)) s)
    (fun H p => ∃ W ch : Nat, W < ce.toNat ∧ ch < i.ch.toNat ∧ p = φ H W ch) (fun _ _ => True) ({} : Comp) d
    (by rintro H p hH ⟨W, ch, hW, hch, rfl⟩; exact hok H W ch hH hW hch) trivial
    (by
      intro H s d1 hH _ hd1
      obtain ⟨c1, d2, a1, a2, a3⟩ := forRange_emits_inv hc (min g.kw ce).toNat
        (fun (w : Nat) (s : Comp × Buf) =>
          (poolPos K src g i o H w (validArea H w i.height i.width g.kh g.kw g.sh g.sw g.pl g.pt 1 1) s.2).map fun d =>
            (validArea H w i.height i.width g.kh g.kw g.sh g.sw g.pl g.pt 1 1, d))
        (fun W p => ∃ ch : Nat, ch < i.ch.toNat ∧ p = φ H W ch)
        (fun k c => ∀ W : Nat, k = W + 1 → c = validArea H W i.height i.width g.kh g.kw g.sh g.sw g.pl g.pt 1 1)
        s d1
        (by rintro W p hW ⟨ch, hch, rfl⟩; exact hok H W ch hH (by omega) hch)
        (by intro W h; omega)
        (by
          intro W s' d3 hW _ hd3
          obtain ⟨q1, q2, q3, q4⟩ := hva H W
          obtain ⟨d4, b1, b2⟩ := poolPos_emits hc K src g i o H W
            (validArea H W i.height i.width g.kh g.kw g.sh g.sw g.pl g.pt 1 1) (φ H W) d3
            (fun ch hch => hok H W ch hH (by omega) hch) (fun ch hch => haddr H W ch hH (by omega) hch)
            (fun ch hch => by rw [hd3, hd1]; exact hb H W ch hH (by omega) hch)
            q1 q2 q3 q4 (fun ch hch => hK H W ch hH (by omega) hch)
          refine ⟨validArea H W i.height i.width g.kh g.kw g.sh g.sw g.pl g.pt 1 1, d4,
            by simp only [b1, Option.map_some], ?_, b2⟩
          intro W' h
          obtain rfl : W' = W := by omega
          rfl)
      by_cases hbig : g.kw < ce
      · have hm : min g.kw ce = g.kw := by omega
        have hm0 : max 0 g.kw = g.kw := by omega
        rw [hm] at a1 a2 a3 ⊢
        rw [hm0]
        have hc1 := a2 (g.kw - 1).toNat (by omega)
        obtain ⟨q1, q2, q3, q4⟩ := hva H ((g.kw - 1).toNat : Int)
        rw [← hc1] at q1 q2 q3 q4
        have hw1 : (((g.kw - 1).toNat : Nat) : Int) = g.kw - 1 := by omega
        obtain ⟨l1, l2⟩ := hin (g.kw - 1).toNat (by omega) (by omega) hbig
        have hil : c1.inLeft = 0 := by unfold winLo at q2; omega
        obtain ⟨c2, d5, e1, e2, e3⟩ := forRange_emits_inv hc (ce - g.kw).toNat
          (fun (w : Nat) (s : Comp × Buf) => (poolPos K src g i o H (g.kw + w) s.1 s.2).map fun d => (s.1, d))
          (fun W p => ∃ ch : Nat, ch < i.ch.toNat ∧ p = φ H (g.kw.toNat + W) ch)
          (fun _ c => c = c1) c1 d2
          (by rintro W p hW ⟨ch, hch, rfl⟩; exact hok H _ ch hH (by omega) hch) rfl
          (by
            intro W s' d3 hW hs' hd3
            subst hs'
            obtain ⟨m1, m2⟩ := hin (g.kw.toNat + W) (by omega) (by omega) hbig
            have hcast : ((g.kw.toNat + W : Nat) : Int) = g.kw + W := by omega
            rw [hcast] at m1 m2
            have hlo : ∀ u : Int, 0 ≤ u * g.sw - g.pl → u * g.sw - g.pl + g.kw ≤ i.width →
                winLo g.sw g.pl u = u * g.sw - g.pl ∧ winLen i.width g.kw g.sw g.pl u = g.kw := by
              intro u h h'
              unfold winLo winLen
              generalize u * g.sw = v at *
              constructor <;> omega
            obtain ⟨r1, r2⟩ := hlo _ m1 m2
            obtain ⟨r3, r4⟩ := hlo _ l1 l2
            obtain ⟨d4, b1, b2⟩ := poolPos_emits hc K src g i o H (g.kw + W) s' (φ H (g.kw.toNat + W)) d3
              (fun ch hch => hok H _ ch hH (by omega) hch)
              (fun ch hch => by rw [haddr H _ ch hH (by omega) hch, hcast])
              (fun ch hch => by rw [hd3, a3.size, hd1]; exact hb H _ ch hH (by omega) hch)
              q1 (by rw [r1]; omega) q3 (by rw [r2]; omega)
              (fun ch hch => by rw [← hcast]; exact hK H _ ch hH (by omega) hch)
            exact ⟨s', d4, by simp only [b1, Option.map_some], rfl, b2⟩)
        refine ⟨c2, d5, by simp only [a1, Option.bind_some, e1], trivial, ?_⟩
        refine (Emits.trans hc ?_ ?_ a3 e3).congr ?_
        · rintro p ⟨W, hW, ch, hch, rfl⟩; exact hok H W ch hH (by omega) hch
        · rintro p ⟨W, hW, ch, hch, rfl⟩; exact hok H _ ch hH (by omega) hch
        · intro p
          constructor
          · rintro (⟨W, hW, ch, hch, rfl⟩ | ⟨W, hW, ch, hch, rfl⟩)
            · exact ⟨W, ch, by omega, hch, rfl⟩
            · exact ⟨_, ch, by omega, hch, rfl⟩
          · rintro ⟨W, ch, hW, hch, rfl⟩
            by_cases hWk : W < g.kw.toNat
            · exact Or.inl ⟨W, hWk, ch, hch, rfl⟩
            · exact Or.inr ⟨W - g.kw.toNat, by omega, ch, hch, by congr 1; omega⟩
      · have hm : min g.kw ce = ce := by omega
        have hm0 : (ce - max 0 ce).toNat = 0 := by omega
        rw [hm] at a1 a2 a3 ⊢
        rw [hm0]
        refine ⟨c1, d2, by simp only [a1, Option.bind_some, forRange], trivial, a3.congr ?_⟩
        intro p
        constructor
        · rintro ⟨W, hW, ch, hch, rfl⟩; exact ⟨W, ch, hW, hch, rfl⟩
        · rintro ⟨W, ch, hW, hch, rfl⟩; exact ⟨W, hW, ch, hch, rfl⟩)
  refine ⟨d', by simp only [h1, Option.map_some], h2.congr ?_⟩
  intro p
  constructor
  · rintro ⟨H, hH, W, ch, hW, hch, rfl⟩; exact ⟨H, W, ch, hH, hW, hch, rfl⟩
  · rintro ⟨H, W, ch, hH, hW, hch, rfl⟩; exact ⟨H, hH, W, ch, hW, hch, rfl⟩

/-- The loop over the part without padding. -/
theorem poolNoPad_emits (K : WinOp) (src : Buf) (rb re cb ce : Int) (g : Geo) (i o : Prv)
    (φ : Nat → Nat → Nat → ι) (d : Buf)
    (hcc : cb ≤ ce) (hsz : i.height ≥ g.kh ∧ i.width ≥ g.kw)
    (hok : ∀ H W ch : Nat, H < (re - rb).toNat → W < (ce - cb).toNat → ch < i.ch.toNat → ok (φ H W ch))
    (haddr : ∀ H W ch : Nat, H < (re - rb).toNat → W < (ce - cb).toNat → ch < i.ch.toNat →
      addr (φ H W ch) = o.ptr + o.row * (rb + H) + o.col * (cb + W) + ch)
    (hb : ∀ H W ch : Nat, H < (re - rb).toNat → W < (ce - cb).toNat → ch < i.ch.toNat →
      0 ≤ addr (φ H W ch) ∧ addr (φ H W ch) < d.size)
    (hK : ∀ H W ch : Nat, H < (re - rb).toNat → W < (ce - cb).toNat → ch < i.ch.toNat →
      K src (i.ptr + i.row * ((rb + H) * g.sh - g.pt) + i.col * ((cb + W) * g.sw - g.pl) + ch)
        g.kh g.kw i.row i.col = some (val (φ H W ch))) :
    ∃ d', poolNoPad K src rb re cb ce g i o d = some d' ∧
      Emits addr val (fun p => ∃ H W ch : Nat, H < (re - rb).toNat ∧ W < (ce - cb).toNat ∧ ch < i.ch.toNat ∧ p = φ H W ch)
        d d' := by
  unfold poolNoPad
  rw [if_pos hsz]
  simp only []
  obtain ⟨d', h1, h2⟩ := forRange_emits hc i.ch.toNat
    (fun (ch : Nat) d =>
      (forRange (re - rb).toNat (fun _ s =>
        (forRange (ce - cb).toNat (fun _ (s : (Int × Int) × Buf) =>
          (K src s.1.1 g.kh g.kw i.row i.col).bind fun r =>
          (s.2.wr s.1.2 r).bind fun d => some ((s.1.1 + i.col * g.sw, s.1.2 + o.col), d)) s).bind
        fun s => some ((s.1.1 + (i.row * g.sh - i.col * g.sw * (ce - cb)), s.1.2 + (o.row - o.col * (ce - cb))), s.2))
        ((i.ptr + i.row * (rb * g.sh - g.pt) + i.col * (cb * g.sw - g.pl) + ch, o.ptr + o.row * rb + o.col * cb + ch), d)).map
        (·.2))
    (fun ch p => ∃ H W : Nat, H < (re - rb).toNat ∧ W < (ce - cb).toNat ∧ p = φ H W ch) d
    (by rintro ch p hch ⟨H, W, hH, hW, rfl⟩; exact hok H W ch hH hW hch)
    (by
      intro ch d1 hch hd1
      obtain ⟨d2, a1, a2⟩ := forRange_emits_ptr hc (re - rb).toNat
        (fun _ (s : (Int × Int) × Buf) =>
          (forRange (ce - cb).toNat (fun _ (s : (Int × Int) × Buf) =>
            (K src s.1.1 g.kh g.kw i.row i.col).bind fun r =>
            (s.2.wr s.1.2 r).bind fun d => some ((s.1.1 + i.col * g.sw, s.1.2 + o.col), d)) s).bind
          fun s => some ((s.1.1 + (i.row * g.sh - i.col * g.sw * (ce - cb)), s.1.2 + (o.row - o.col * (ce - cb))), s.2))
        (fun H p => ∃ W : Nat, W < (ce - cb).toNat ∧ p = φ H W ch)
        (fun (H : Nat) => ((i.ptr + i.row * ((rb + H) * g.sh - g.pt) + i.col * (cb * g.sw - g.pl) + ch,
          o.ptr + o.row * (rb + H) + o.col * cb + ch) : Int × Int)) d1
        (by rintro H p hH ⟨W, hW, rfl⟩; exact hok H W ch hH hW hch)
        (by
          intro H d2 hH hd2
          obtain ⟨d3, b1, b2⟩ := forRange_emits_ptr hc (ce - cb).toNat
            (fun _ (s : (Int × Int) × Buf) =>
              (K src s.1.1 g.kh g.kw i.row i.col).bind fun r =>
              (s.2.wr s.1.2 r).bind fun d => some ((s.1.1 + i.col * g.sw, s.1.2 + o.col), d))
            (fun W p => p = φ H W ch)
            (fun (W : Nat) => ((i.ptr + i.row * ((rb + H) * g.sh - g.pt) + i.col * ((cb + W) * g.sw - g.pl) + ch,
              o.ptr + o.row * (rb + H) + o.col * (cb + W) + ch) : Int × Int)) d2
            (by rintro W p hW rfl; exact hok H W ch hH hW hch)
            (by
              intro W d3 hW hd3
              simp only [hK H W ch hH hW hch, Option.bind_some, ← haddr H W ch hH hW hch]
              obtain ⟨d4, w1, w2⟩ := Emits.one addr val (φ H W ch) d3
                (by rw [hd3, hd2, hd1]; exact hb H W ch hH hW hch)
              refine ⟨d4, ?_, w2⟩
              rw [w1, Option.bind_some, haddr H W ch hH hW hch]
              have e1 : i.ptr + i.row * ((rb + H) * g.sh - g.pt) + i.col * ((cb + W) * g.sw - g.pl) + ch + i.col * g.sw
                  = i.ptr + i.row * ((rb + H) * g.sh - g.pt) + i.col * ((cb + (W + 1 : Nat)) * g.sw - g.pl) + ch := by
                push_cast; ring
              have e2 : o.ptr + o.row * (rb + H) + o.col * (cb + W) + ch + o.col
                  = o.ptr + o.row * (rb + H) + o.col * (cb + (W + 1 : Nat)) + ch := by push_cast; ring
              rw [e1, e2])
          refine ⟨d3, ?_, b2⟩
          simp only [Nat.cast_zero, Int.add_zero] at b1
          simp only [b1, Option.bind_some, Option.some.injEq, Prod.mk.injEq, and_true]
          have e : (((ce - cb).toNat : Nat) : Int) = ce - cb := by omega
          rw [e]
          constructor <;> (push_cast; ring))
      refine ⟨d2, ?_, a2.congr ?_⟩
      · simp only [Nat.cast_zero, Int.add_zero] at a1
        rw [a1]; rfl
      · intro p
        constructor
        · rintro ⟨H, hH, W, hW, rfl⟩; exact ⟨H, W, hH, hW, rfl⟩
        · rintro ⟨H, W, hH, hW, rfl⟩; exact ⟨H, hH, W, hW, rfl⟩)
  refine ⟨d', h1, h2.congr ?_⟩
  intro p
  constructor
  · rintro ⟨ch, hch, H, W, hH, hW, rfl⟩; exact ⟨H, W, ch, hH, hW, hch, rfl⟩
  · rintro ⟨H, W, ch, hH, hW, hch, rfl⟩; exact ⟨ch, hch, H, W, hH, hW, rfl⟩

end skeleton

/-! ## All of the output -/

section whole
variable {K : WinOp} {src d : Buf} {g : Geo} {i o : Prv} {val : Int × Int × Int → Int}

/-- The hypotheses under which all of the output is covered. -/
structure PoolOk (K : WinOp) (src d : Buf) (g : Geo) (i o : Prv) (val : Int × Int × Int → Int) : Prop where
  ah : Axis i.height g.kh g.sh g.pt g.pb o.height
  aw : Axis i.width g.kw g.sw g.pl g.pr o.width
  ch : o.ch = i.ch
  coh : Coherent (prvAddr o) val (prvIn o)
  bnd : ∀ p, prvIn o p → 0 ≤ prvAddr o p ∧ prvAddr o p < d.size
  win : ∀ p, prvIn o p → ∀ (q rs cs : Int) (R C : Nat), 1 ≤ R → 1 ≤ C → R * C ≤ g.kh * g.kw →
    (rect q rs cs R C).Perm (winRect g i p) → K src q R C rs cs = some (val p)

theorem PoolOk.size (h : PoolOk K src d g i o val) {d' : Buf} (e : d'.size = d.size) : PoolOk K src d' g i o val :=
  ⟨h.ah, h.aw, h.ch, h.coh, fun p hp => by rw [e]; exact h.bnd p hp, h.win⟩

/-- `K` on a window given by integer extents. -/
theorem PoolOk.run (h : PoolOk K src d g i o val) {p : Int × Int × Int} (hp : prvIn o p) {q rs cs R C : Int}
    (h1 : 1 ≤ R) (h2 : 1 ≤ C) (h3 : R * C ≤ g.kh * g.kw) (hq : (rect q rs cs R.toNat C.toNat).Perm (winRect g i p)) :
    K src q R C rs cs = some (val p) := by
  have := h.win p hp q rs cs R.toNat C.toNat (by omega) (by omega)
    (by rw [show ((R.toNat : Nat) : Int) = R by omega, show ((C.toNat : Nat) : Int) = C by omega]; exact h3) hq
  rwa [show ((R.toNat : Nat) : Int) = R by omega, show ((C.toNat : Nat) : Int) = C by omega] at this

/-- Extents of the windows. -/
theorem PoolOk.ext (h : PoolOk K src d g i o val) {y x : Int} (hy : 0 ≤ y ∧ y < o.height) (hx : 0 ≤ x ∧ x < o.width) :
    1 ≤ winLen i.height g.kh g.sh g.pt y ∧ 1 ≤ winLen i.width g.kw g.sw g.pl x ∧
    winLen i.height g.kh g.sh g.pt y * winLen i.width g.kw g.sw g.pl x ≤ g.kh * g.kw := by
  obtain ⟨_, a, _, b⟩ := h.ah.win hy.1 hy.2
  obtain ⟨_, a', _, b'⟩ := h.aw.win hx.1 hx.2
  exact ⟨a, a', Int.mul_le_mul b b' (by omega) (by omega)⟩

theorem poolNoPad_whole (h : PoolOk K src d g i o val)
    (hr : ceilDiv g.pt g.sh < o.height - ceilDiv g.pb g.sh) (hc : ceilDiv g.pl g.sw < o.width - ceilDiv g.pr g.sw) :
    ∃ d', poolNoPad K src (ceilDiv g.pt g.sh) (o.height - ceilDiv g.pb g.sh) (ceilDiv g.pl g.sw)
        (o.width - ceilDiv g.pr g.sw) g i o d = some d' ∧
      Emits (prvAddr o) val (fun p => prvIn o p ∧
        (ceilDiv g.pt g.sh ≤ p.1 ∧ p.1 < o.height - ceilDiv g.pb g.sh) ∧
        (ceilDiv g.pl g.sw ≤ p.2.1 ∧ p.2.1 < o.width - ceilDiv g.pr g.sw)) d d' := by
  have n1 := ceilDiv_nonneg h.ah.p0 (b := g.sh) (by have := h.ah.s1; omega)
  have n2 := ceilDiv_nonneg h.ah.q0 (b := g.sh) (by have := h.ah.s1; omega)
  have n3 := ceilDiv_nonneg h.aw.p0 (b := g.sw) (by have := h.aw.s1; omega)
  have n4 := ceilDiv_nonneg h.aw.q0 (b := g.sw) (by have := h.aw.s1; omega)
  have hch := h.ch
  have full : ∀ {n k s p q oo y : Int}, Axis n k s p q oo → ceilDiv p s ≤ y → y < oo - ceilDiv q s →
      winLo s p y = y * s - p ∧ winLen n k s p y = k := by
    intro n k s p q oo y a h1 h2
    have := a.before_end h2
    have := a.after_begin h1
    unfold winLo winLen
    generalize y * s = v at *
    omega
  obtain ⟨d', a, b⟩ := poolNoPad_emits h.coh K src (ceilDiv g.pt g.sh) (o.height - ceilDiv g.pb g.sh) (ceilDiv g.pl g.sw)
    (o.width - ceilDiv g.pr g.sw) g i o
    (fun H W ch => (ceilDiv g.pt g.sh + H, ceilDiv g.pl g.sw + W, (ch : Int))) d (by omega)
    (by
      obtain ⟨e1, e2⟩ := full h.ah (le_refl _) hr
      obtain ⟨e3, e4⟩ := full h.aw (le_refl _) hc
      obtain ⟨f1, _, f2, _⟩ := h.ah.win (y := ceilDiv g.pt g.sh) (by omega) (by omega)
      obtain ⟨f3, _, f4, _⟩ := h.aw.win (y := ceilDiv g.pl g.sw) (by omega) (by omega)
      omega)
    (by intro H W ch hH hW hch; refine ⟨⟨?_, ?_⟩, ⟨?_, ?_⟩, ?_, ?_⟩ <;> simp only [] <;> omega)
    (by intro H W ch _ _ _; rfl)
    (by
      intro H W ch hH hW hch
      exact h.bnd _ ⟨⟨by simp only []; omega, by simp only []; omega⟩, ⟨by simp only []; omega, by simp only []; omega⟩,
        by simp only []; omega, by simp only []; omega⟩)
    (by
      intro H W ch hH hW hch
      obtain ⟨e1, e2⟩ := full h.ah (y := ceilDiv g.pt g.sh + H) (by omega) (by omega)
      obtain ⟨e3, e4⟩ := full h.aw (y := ceilDiv g.pl g.sw + W) (by omega) (by omega)
      have hy : 0 ≤ ceilDiv g.pt g.sh + (H : Int) ∧ ceilDiv g.pt g.sh + (H : Int) < o.height := by omega
      have hx : 0 ≤ ceilDiv g.pl g.sw + (W : Int) ∧ ceilDiv g.pl g.sw + (W : Int) < o.width := by omega
      obtain ⟨x1, x2, x3⟩ := h.ext hy hx
      rw [e2] at x1 x3
      rw [e4] at x2 x3
      refine h.run ⟨hy, hx, by simp only []; omega, by simp only []; omega⟩ x1 x2 x3 ?_
      simp only [winRect, e1, e2, e3, e4]
      exact List.Perm.refl _)
  refine ⟨d', a, b.congr ?_⟩
  rintro ⟨y, x, c⟩
  constructor
  · rintro ⟨H, W, ch, hH, hW, hch, e⟩
    simp only [Prod.mk.injEq] at e
    obtain ⟨rfl, rfl, rfl⟩ := e
    refine ⟨⟨⟨?_, ?_⟩, ⟨?_, ?_⟩, ?_, ?_⟩, ⟨?_, ?_⟩, ?_, ?_⟩ <;> simp only [] <;> omega
  · rintro ⟨⟨⟨_, _⟩, ⟨_, _⟩, _, _⟩, ⟨_, _⟩, _, _⟩
    simp only [] at *
    refine ⟨(y - ceilDiv g.pt g.sh).toNat, (x - ceilDiv g.pl g.sw).toNat, c.toNat, by omega, by omega, by omega, ?_⟩
    simp only [Prod.mk.injEq]
    omega

/-- The columns of a border area behind the first `kernel_width` ones are not clipped. -/
theorem border_inner {n k s p q oo ce : Int} (a : Axis n k s p q oo) (hce : ce ≤ max (ceilDiv p s) (oo - ceilDiv q s))
    (W : Nat) (h1 : W < ce.toNat) (h2 : k ≤ W + 1) (_ : k < ce) : 0 ≤ W * s - p ∧ W * s - p + k ≤ n := by
  have hs := a.s1
  have hp := a.p0
  have hpk := a.pk
  have : ceilDiv p s ≤ p := ceilDiv_le_self a.p0 (by omega)
  refine ⟨a.after_begin (by omega), a.before_end (by omega)⟩

theorem poolTop_whole (h : PoolOk K src d g i o val) :
    ∃ d', poolTop K src g i o d = some d' ∧
      Emits (prvAddr o) val (fun p => prvIn o p ∧ p.1 < ceilDiv g.pt g.sh ∧
        p.2.1 < max (ceilDiv g.pl g.sw) (o.width - ceilDiv g.pr g.sw)) d d' := by
  have n0 := (ceilDiv_le_iff (i := o.height) h.ah.p0 (b := g.sh) (by have := h.ah.s1; omega)).2 h.ah.po
  have n3 := (ceilDiv_le_iff (i := o.width) h.aw.p0 (b := g.sw) (by have := h.aw.s1; omega)).2 h.aw.po
  have n4 := ceilDiv_nonneg h.aw.q0 (b := g.sw) (by have := h.aw.s1; omega)
  have hch := h.ch
  unfold poolTop
  by_cases hz : g.pt ≠ 0
  · rw [if_pos hz]
    have inn : ∀ H W ch : Nat, H < (ceilDiv g.pt g.sh).toNat →
        W < (max (ceilDiv g.pl g.sw) (o.width - ceilDiv g.pr g.sw)).toNat → ch < i.ch.toNat →
        prvIn o ((H : Int), (W : Int), (ch : Int)) := by
      intro H W ch _ _ _
      refine ⟨⟨?_, ?_⟩, ⟨?_, ?_⟩, ?_, ?_⟩ <;> simp only [] <;> omega
    obtain ⟨d', a, b⟩ := poolPad_emits h.coh K src (ceilDiv g.pt g.sh)
      (max (ceilDiv g.pl g.sw) (o.width - ceilDiv g.pr g.sw)) g i o (fun H W ch => ((H : Int), (W : Int), (ch : Int))) d
      (by have := h.aw.p0; have := h.aw.pk; omega) inn (by intro H W ch _ _ _; rfl)
      (fun H W ch h1 h2 h3 => h.bnd _ (inn H W ch h1 h2 h3))
      (border_inner h.aw (le_refl _))
      (by
        intro H W ch h1 h2 h3
        have hin := inn H W ch h1 h2 h3
        obtain ⟨x1, x2, x3⟩ := h.ext hin.1 hin.2.1
        exact h.run hin x1 x2 x3 (List.Perm.refl _))
    refine ⟨d', a, b.congr ?_⟩
    rintro ⟨y, x, c⟩
    constructor
    · rintro ⟨H, W, ch, hH, hW, hch, e⟩
      rw [e]
      exact ⟨inn H W ch hH hW hch, by simp only []; omega, by simp only []; omega⟩
    · rintro ⟨⟨⟨_, _⟩, ⟨_, _⟩, _, _⟩, _, _⟩
      simp only [] at *
      refine ⟨y.toNat, x.toNat, c.toNat, by omega, by omega, by omega, ?_⟩
      simp only [Prod.mk.injEq]
      omega
  · rw [if_neg hz]
    refine ⟨d, rfl, (Emits.none _ _ d).congr ?_⟩
    rintro ⟨y, x, c⟩
    refine ⟨False.elim, ?_⟩
    rintro ⟨⟨⟨h1, _⟩, _⟩, h2, _⟩
    simp only [] at h1 h2
    rw [show g.pt = 0 by omega, ceilDiv_zero (by have := h.ah.s1; omega)] at h2
    omega

theorem poolRight_whole (h : PoolOk K src d g i o val) :
    ∃ d', poolRight K src g i o d = some d' ∧
      Emits (prvAddr o) val (fun p => prvIn o p ∧ o.width - ceilDiv g.pr g.sw ≤ p.2.1 ∧
        p.1 < o.height - ceilDiv g.pb g.sh) d d' := by
  have n0 := (ceilDiv_le_iff (i := o.width) h.aw.q0 (b := g.sw) (by have := h.aw.s1; omega)).2 h.aw.qo
  have n4 := ceilDiv_nonneg h.ah.q0 (b := g.sh) (by have := h.ah.s1; omega)
  have hch := h.ch
  unfold poolRight
  by_cases hz : g.pr ≠ 0
  · rw [if_pos hz, show o.width - o.width = 0 by omega,
      show o.width - (o.width - ceilDiv g.pr g.sw) = ceilDiv g.pr g.sw by omega]
    have inn : ∀ H W ch : Nat, H < (ceilDiv g.pr g.sw).toNat →
        W < (o.height - ceilDiv g.pb g.sh).toNat → ch < i.ch.toNat →
        prvIn o ((W : Int), o.width - 1 - (H : Int), (ch : Int)) := by
      intro H W ch _ _ _
      refine ⟨⟨?_, ?_⟩, ⟨?_, ?_⟩, ?_, ?_⟩ <;> simp only [] <;> omega
    obtain ⟨d', a, b⟩ := poolPad_emits h.coh K src (ceilDiv g.pr g.sw) (o.height - ceilDiv g.pb g.sh)
      { kh := g.kw, kw := g.kh, sh := g.sw, sw := g.sh, pt := g.pr, pb := g.pl, pl := g.pt, pr := g.pb }
      (rotate 1 i) (rotate 1 o) (fun H W ch => ((W : Int), o.width - 1 - (H : Int), (ch : Int))) d
      (by have := h.ah.p0; have := h.ah.pk; simp only []; omega) inn
      (by intro H W ch _ _ _; simp only [prvAddr, rotate]; ring)
      (fun H W ch h1 h2 h3 => h.bnd _ (inn H W ch h1 h2 h3))
      (border_inner h.ah (le_max_right _ _))
      (by
        intro H W ch h1 h2 h3
        have hin := inn H W ch h1 h2 h3
        obtain ⟨x1, x2, x3⟩ := h.ext hin.1 hin.2.1
        obtain ⟨m1, m2⟩ := h.aw.mirror (y := (H : Int))
        simp only [rotate] at *
        rw [m1, m2]
        refine h.run hin x2 x1 (by rw [Int.mul_comm]; exact x3) ?_
        refine List.Perm.trans (List.Perm.of_eq ?_) (rect_rot1 _ _ _ _ _)
        congr 1
        rw [show (((winLen i.width g.kw g.sw g.pl (o.width - 1 - H)).toNat : Nat) : Int) =
          winLen i.width g.kw g.sw g.pl (o.width - 1 - H) by omega]
        ring)
    refine ⟨d', a, b.congr ?_⟩
    rintro ⟨y, x, c⟩
    constructor
    · rintro ⟨H, W, ch, hH, hW, hch, e⟩
      rw [e]
      exact ⟨inn H W ch hH hW hch, by simp only []; omega, by simp only []; omega⟩
    · rintro ⟨⟨⟨_, _⟩, ⟨_, _⟩, _, _⟩, _, _⟩
      simp only [] at *
      refine ⟨(o.width - 1 - x).toNat, y.toNat, c.toNat, by omega, by omega, by simp only [rotate]; omega, ?_⟩
      simp only [Prod.mk.injEq]
      omega
  · rw [if_neg hz]
    refine ⟨d, rfl, (Emits.none _ _ d).congr ?_⟩
    rintro ⟨y, x, c⟩
    refine ⟨False.elim, ?_⟩
    rintro ⟨⟨_, ⟨_, h1⟩, _⟩, h2, _⟩
    simp only [] at h1 h2
    rw [show g.pr = 0 by omega, ceilDiv_zero (by have := h.aw.s1; omega)] at h2
    omega

theorem poolBottom_whole (h : PoolOk K src d g i o val) :
    ∃ d', poolBottom K src g i o d = some d' ∧
      Emits (prvAddr o) val (fun p => prvIn o p ∧ o.height - ceilDiv g.pb g.sh ≤ p.1 ∧
        ceilDiv g.pl g.sw ≤ p.2.1) d d' := by
  have n0 := (ceilDiv_le_iff (i := o.height) h.ah.q0 (b := g.sh) (by have := h.ah.s1; omega)).2 h.ah.qo
  have n4 := ceilDiv_nonneg h.aw.p0 (b := g.sw) (by have := h.aw.s1; omega)
  have hch := h.ch
  unfold poolBottom
  by_cases hz : g.pb ≠ 0
  · rw [if_pos hz, show o.width - o.width = 0 by omega, show o.height - o.height = 0 by omega,
      show o.height - (o.height - ceilDiv g.pb g.sh) = ceilDiv g.pb g.sh by omega]
    have inn : ∀ H W ch : Nat, H < (ceilDiv g.pb g.sh).toNat →
        W < (o.width - ceilDiv g.pl g.sw).toNat → ch < i.ch.toNat →
        prvIn o (o.height - 1 - (H : Int), o.width - 1 - (W : Int), (ch : Int)) := by
      intro H W ch _ _ _
      refine ⟨⟨?_, ?_⟩, ⟨?_, ?_⟩, ?_, ?_⟩ <;> simp only [] <;> omega
    obtain ⟨d', a, b⟩ := poolPad_emits h.coh K src (ceilDiv g.pb g.sh) (o.width - ceilDiv g.pl g.sw)
      { g with pt := g.pb, pb := g.pt, pl := g.pr, pr := g.pl }
      (rotate 2 i) (rotate 2 o) (fun H W ch => (o.height - 1 - (H : Int), o.width - 1 - (W : Int), (ch : Int))) d
      (by have := h.aw.p0; have := h.aw.pk; simp only []; omega) inn
      (by intro H W ch _ _ _; simp only [prvAddr, rotate]; ring)
      (fun H W ch h1 h2 h3 => h.bnd _ (inn H W ch h1 h2 h3))
      (border_inner h.aw.flip (le_max_right _ _))
      (by
        intro H W ch h1 h2 h3
        have hin := inn H W ch h1 h2 h3
        obtain ⟨x1, x2, x3⟩ := h.ext hin.1 hin.2.1
        obtain ⟨m1, m2⟩ := h.ah.mirror (y := (H : Int))
        obtain ⟨m3, m4⟩ := h.aw.mirror (y := (W : Int))
        simp only [rotate] at *
        rw [m1, m2, m3, m4]
        refine h.run hin x1 x2 x3 ?_
        refine List.Perm.trans (List.Perm.of_eq ?_) (rect_rot2 _ _ _ _ _)
        congr 1
        rw [show (((winLen i.width g.kw g.sw g.pl (o.width - 1 - W)).toNat : Nat) : Int) =
          winLen i.width g.kw g.sw g.pl (o.width - 1 - W) by omega,
          show (((winLen i.height g.kh g.sh g.pt (o.height - 1 - H)).toNat : Nat) : Int) =
          winLen i.height g.kh g.sh g.pt (o.height - 1 - H) by omega]
        ring)
    refine ⟨d', a, b.congr ?_⟩
    rintro ⟨y, x, c⟩
    constructor
    · rintro ⟨H, W, ch, hH, hW, hch, e⟩
      rw [e]
      exact ⟨inn H W ch hH hW hch, by simp only []; omega, by simp only []; omega⟩
    · rintro ⟨⟨⟨_, _⟩, ⟨_, _⟩, _, _⟩, _, _⟩
      simp only [] at *
      refine ⟨(o.height - 1 - y).toNat, (o.width - 1 - x).toNat, c.toNat, by omega, by omega,
        by simp only [rotate]; omega, ?_⟩
      simp only [Prod.mk.injEq]
      omega
  · rw [if_neg hz]
    refine ⟨d, rfl, (Emits.none _ _ d).congr ?_⟩
    rintro ⟨y, x, c⟩
    refine ⟨False.elim, ?_⟩
    rintro ⟨⟨⟨_, h1⟩, _⟩, h2, _⟩
    simp only [] at h1 h2
    rw [show g.pb = 0 by omega, ceilDiv_zero (by have := h.ah.s1; omega)] at h2
    omega

theorem poolLeft_whole (h : PoolOk K src d g i o val) :
    ∃ d', poolLeft K src g i o d = some d' ∧
      Emits (prvAddr o) val (fun p => prvIn o p ∧ p.2.1 < ceilDiv g.pl g.sw ∧
        ceilDiv g.pt g.sh ≤ p.1) d d' := by
  have n0 := (ceilDiv_le_iff (i := o.width) h.aw.p0 (b := g.sw) (by have := h.aw.s1; omega)).2 h.aw.po
  have n4 := ceilDiv_nonneg h.ah.p0 (b := g.sh) (by have := h.ah.s1; omega)
  have hch := h.ch
  unfold poolLeft
  by_cases hz : g.pl ≠ 0
  · rw [if_pos hz, show o.height - o.height = 0 by omega]
    have inn : ∀ H W ch : Nat, H < (ceilDiv g.pl g.sw).toNat →
        W < (o.height - ceilDiv g.pt g.sh).toNat → ch < i.ch.toNat →
        prvIn o (o.height - 1 - (W : Int), (H : Int), (ch : Int)) := by
      intro H W ch _ _ _
      refine ⟨⟨?_, ?_⟩, ⟨?_, ?_⟩, ?_, ?_⟩ <;> simp only [] <;> omega
    obtain ⟨d', a, b⟩ := poolPad_emits h.coh K src (ceilDiv g.pl g.sw) (o.height - ceilDiv g.pt g.sh)
      { kh := g.kw, kw := g.kh, sh := g.sw, sw := g.sh, pt := g.pl, pb := g.pr, pl := g.pb, pr := g.pt }
      (rotate 3 i) (rotate 3 o) (fun H W ch => (o.height - 1 - (W : Int), (H : Int), (ch : Int))) d
      (by have := h.ah.p0; have := h.ah.pk; simp only []; omega) inn
      (by intro H W ch _ _ _; simp only [prvAddr, rotate]; ring)
      (fun H W ch h1 h2 h3 => h.bnd _ (inn H W ch h1 h2 h3))
      (border_inner h.ah.flip (le_max_right _ _))
      (by
        intro H W ch h1 h2 h3
        have hin := inn H W ch h1 h2 h3
        obtain ⟨x1, x2, x3⟩ := h.ext hin.1 hin.2.1
        obtain ⟨m1, m2⟩ := h.ah.mirror (y := (W : Int))
        simp only [rotate] at *
        rw [m1, m2]
        refine h.run hin x2 x1 (by rw [Int.mul_comm]; exact x3) ?_
        refine List.Perm.trans (List.Perm.of_eq ?_) (rect_rot3 _ _ _ _ _)
        congr 1
        rw [show (((winLen i.height g.kh g.sh g.pt (o.height - 1 - W)).toNat : Nat) : Int) =
          winLen i.height g.kh g.sh g.pt (o.height - 1 - W) by omega]
        ring)
    refine ⟨d', a, b.congr ?_⟩
    rintro ⟨y, x, c⟩
    constructor
    · rintro ⟨H, W, ch, hH, hW, hch, e⟩
      rw [e]
      exact ⟨inn H W ch hH hW hch, by simp only []; omega, by simp only []; omega⟩
    · rintro ⟨⟨⟨_, _⟩, ⟨_, _⟩, _, _⟩, _, _⟩
      simp only [] at *
      refine ⟨x.toNat, (o.height - 1 - y).toNat, c.toNat, by omega, by omega, by simp only [rotate]; omega, ?_⟩
      simp only [Prod.mk.injEq]
      omega
  · rw [if_neg hz]
    refine ⟨d, rfl, (Emits.none _ _ d).congr ?_⟩
    rintro ⟨y, x, c⟩
    refine ⟨False.elim, ?_⟩
    rintro ⟨⟨_, ⟨h1, _⟩, _⟩, h2, _⟩
    simp only [] at h1 h2
    rw [show g.pl = 0 by omega, ceilDiv_zero (by have := h.aw.s1; omega)] at h2
    omega

/-- Every output position is written with its value, and nothing else is. -/
theorem poolWrapper_whole (h : PoolOk K src d g i o val) :
    ∃ d', poolWrapper K src g i o d = some d' ∧ Emits (prvAddr o) val (prvIn o) d d' := by
  have hs1 := h.ah.s1
  have hs2 := h.aw.s1
  unfold poolWrapper
  by_cases hp : g.pt ≠ 0 ∨ g.pl ≠ 0 ∨ g.pb ≠ 0 ∨ g.pr ≠ 0
  · rw [if_pos hp]
    unfold poolHwcPad
    simp only [h.ah.nopad_end, h.aw.nopad_end, if_pos hp]
    obtain ⟨d1, a1, b1⟩ : ∃ d1, (if o.height - ceilDiv g.pb g.sh - ceilDiv g.pt g.sh > 0 ∧
          o.width - ceilDiv g.pr g.sw - ceilDiv g.pl g.sw > 0 then
        poolNoPad K src (ceilDiv g.pt g.sh) (o.height - ceilDiv g.pb g.sh) (ceilDiv g.pl g.sw)
          (o.width - ceilDiv g.pr g.sw) g i o d else some d) = some d1 ∧
        Emits (prvAddr o) val (fun p => prvIn o p ∧
          (ceilDiv g.pt g.sh ≤ p.1 ∧ p.1 < o.height - ceilDiv g.pb g.sh) ∧
          (ceilDiv g.pl g.sw ≤ p.2.1 ∧ p.2.1 < o.width - ceilDiv g.pr g.sw)) d d1 := by
      by_cases hn : o.height - ceilDiv g.pb g.sh - ceilDiv g.pt g.sh > 0 ∧
          o.width - ceilDiv g.pr g.sw - ceilDiv g.pl g.sw > 0
      · rw [if_pos hn]
        exact poolNoPad_whole h (by omega) (by omega)
      · rw [if_neg hn]
        refine ⟨d, rfl, (Emits.none _ _ d).congr ?_⟩
        intro p
        refine ⟨False.elim, ?_⟩
        rintro ⟨_, h1, h2⟩
        omega
    have h1 := h.size b1.size
    obtain ⟨d2, a2, b2⟩ := poolTop_whole h1
    have h2 := h1.size b2.size
    obtain ⟨d3, a3, b3⟩ := poolRight_whole h2
    have h3 := h2.size b3.size
    obtain ⟨d4, a4, b4⟩ := poolBottom_whole h3
    have h4 := h3.size b4.size
    obtain ⟨d5, a5, b5⟩ := poolLeft_whole h4
    refine ⟨d5, by simp only [a1, a2, a3, a4, a5, Option.bind_some], ?_⟩
    have c1 := Emits.trans h.coh (fun p hp => hp.1) (fun p hp => hp.1) b1 b2
    have c2 := Emits.trans h.coh (fun p hp => hp.elim (·.1) (·.1)) (fun p hp => hp.1) c1 b3
    have c3 := Emits.trans h.coh (fun p hp => hp.elim (·.elim (·.1) (·.1)) (·.1)) (fun p hp => hp.1) c2 b4
    have c4 := Emits.trans h.coh (fun p hp => hp.elim (·.elim (·.elim (·.1) (·.1)) (·.1)) (·.1)) (fun p hp => hp.1) c3 b5
    refine c4.congr ?_
    intro p
    constructor
    · rintro ((((h | h) | h) | h) | h) <;> exact h.1
    · intro hp
      by_cases q1 : p.2.1 < ceilDiv g.pl g.sw
      · by_cases q2 : ceilDiv g.pt g.sh ≤ p.1
        · exact Or.inr ⟨hp, q1, q2⟩
        · exact Or.inl (Or.inl (Or.inl (Or.inr ⟨hp, by omega, by omega⟩)))
      · by_cases q2 : o.height - ceilDiv g.pb g.sh ≤ p.1
        · exact Or.inl (Or.inr ⟨hp, q2, by omega⟩)
        · by_cases q3 : o.width - ceilDiv g.pr g.sw ≤ p.2.1
          · exact Or.inl (Or.inl (Or.inr ⟨hp, q3, by omega⟩))
          · by_cases q4 : p.1 < ceilDiv g.pt g.sh
            · exact Or.inl (Or.inl (Or.inl (Or.inr ⟨hp, q4, by omega⟩)))
            · exact Or.inl (Or.inl (Or.inl (Or.inl ⟨hp, by omega, by omega⟩)))
  · rw [if_neg hp]
    have e : ({ g with pt := 0, pb := 0, pl := 0, pr := 0 } : Geo) = g := by
      obtain ⟨kh, kw, sh, sw, pt, pb, pl, pr⟩ := g
      simp only at hp
      simp only [Geo.mk.injEq, true_and]
      omega
    rw [e]
    have z1 : ceilDiv g.pt g.sh = 0 := by rw [show g.pt = 0 by omega]; exact ceilDiv_zero (by omega)
    have z2 : ceilDiv g.pb g.sh = 0 := by rw [show g.pb = 0 by omega]; exact ceilDiv_zero (by omega)
    have z3 : ceilDiv g.pl g.sw = 0 := by rw [show g.pl = 0 by omega]; exact ceilDiv_zero (by omega)
    have z4 : ceilDiv g.pr g.sw = 0 := by rw [show g.pr = 0 by omega]; exact ceilDiv_zero (by omega)
    have o1 := h.ah.o1
    have o2 := h.aw.o1
    obtain ⟨d', a, b⟩ := poolNoPad_whole h (by omega) (by omega)
    rw [z1, z2, z3, z4, Int.sub_zero, Int.sub_zero] at a
    refine ⟨d', a, b.congr ?_⟩
    intro p
    constructor
    · exact fun h => h.1
    · intro hp
      have hp' := hp
      obtain ⟨⟨_, _⟩, ⟨_, _⟩, _⟩ := hp'
      exact ⟨hp, by omega, by omega⟩

end whole

/-! ## The kernels on tensors -/

/-- What the pooling theorems ask of the window geometry for input size `n` and output size `o` along
one axis with kernel `k`, stride `s` and padding `p`, `q` as configured: the fields are bytes, nothing wraps
in the 32-bit sizes, and neither the padding before the input nor the one needed behind it is more
than the output positions step over. -/
structure AxisGeo (n k s p q o : Int) : Prop where
  bytes : (0 ≤ k ∧ k < 256) ∧ (0 ≤ s ∧ s < 256) ∧ (0 ≤ p ∧ p < 256) ∧ (0 ≤ q ∧ q < 256)
  small : n + p + q < 2 ^ 31 ∧ o * s + k < 2 ^ 31
  before : p ≤ o * s
  behind : k ≤ n + p + s

/-- The geometry along both axes. -/
structure PoolGeo (tin : Tensor) (g : Geo) (tout : Tensor) (ih iw ic oh ow : Int) : Prop where
  sin : tin.shape = [ih, iw, ic]
  sout : tout.shape = [oh, ow, ic]
  h : AxisGeo ih g.kh g.sh g.pt g.pb oh
  w : AxisGeo iw g.kw g.sw g.pl g.pr ow

theorem chkPool_ok {tin tout : Tensor} {g : Geo} (h : chkPool tin g tout = some .ok) :
    ∃ ih iw ic oh ow oc, tin.dims = [ih, iw, ic] ∧ tout.dims = [oh, ow, oc] ∧ ic.stride = 1 ∧ oc.stride = 1 ∧
      oc.shape = ic.shape ∧
      (g.pl < g.kw ∧ g.pr < g.kw ∧ g.pt < g.kh ∧ g.pb < g.kh ∧ g.sh > 0 ∧ g.sw > 0) ∧
      wrap 32 (oh.shape * g.sh + g.kh - g.sh) ≤ wrap 32 (ih.shape + g.pt + g.pb) ∧
      wrap 32 (ow.shape * g.sw + g.kw - g.sw) ≤ wrap 32 (iw.shape + g.pl + g.pr) := by
  unfold chkPool at h
  simp only [Option.pure_def, Option.bind_eq_bind] at h
  rw [Option.bind_eq_some_iff] at h
  obtain ⟨s1, hs1, h⟩ := h
  split at h
  · rename_i h'; exact absurd (Option.some.inj h) h'
  rw [Option.bind_eq_some_iff] at h
  obtain ⟨s2, hs2, h⟩ := h
  split at h
  · rename_i h'; exact absurd (Option.some.inj h) h'
  split at h
  · rename_i ih iw ic oh ow oc e1 e2
    split at h
    · cases h
    rename_i hin
    split at h
    · cases h
    rename_i hc
    split at h
    · cases h
    rename_i hr
    simp only [innerOne, Tensor.strides, e1, e2, List.map_cons, List.map_nil, Bool.not_eq_true, Bool.not_eq_false',
      Bool.and_eq_true] at hin
    simp only [List.getLast?_cons_cons, List.getLast?_singleton, beq_iff_eq] at hin
    push Not at hc hr
    exact ⟨ih, iw, ic, oh, ow, oc, e1, e2, hin.1, hin.2, hr.2.2, hc, hr.1, hr.2.1⟩
  · cases h

/-- The axis after the adjustment of padding and input size. -/
theorem AxisGeo.axis {n k s p q o : Int} (h : AxisGeo n k s p q o) (hp : p < k) (hq : q < k) (hs : 0 < s) (hn : 1 ≤ n)
    (ho : 1 ≤ o) (hreq : wrap 32 (o * s + k - s) ≤ wrap 32 (n + p + q)) :
    Axis (n + min (o * s + k - s - n - p) 0) k s p (max (o * s + k - s - n - p) 0) o ∧
    ∀ y, 0 ≤ y → y < o → winLen (n + min (o * s + k - s - n - p) 0) k s p y = winLen n k s p y := by
  obtain ⟨⟨k0, s0, p0, q0⟩, ⟨b1, b2⟩, h1, h2⟩ := h
  have hos : s ≤ o * s := by nlinarith
  rw [wrap_of_inRange (by omega) (show InRange 32 (o * s + k - s) by constructor <;> simp only [lo, hi] <;> omega),
    wrap_of_inRange (by omega) (show InRange 32 (n + p + q) by constructor <;> simp only [lo, hi] <;> omega)] at hreq
  have e : (o - 1) * s = o * s - s := by ring
  refine ⟨⟨by omega, by omega, hp, by omega, by omega, by omega, ho, h1, by omega, by omega⟩, ?_⟩
  intro y y0 y1
  have : y * s ≤ (o - 1) * s := Int.mul_le_mul_of_nonneg_right (by omega) (by omega)
  have : 0 ≤ y * s := Int.mul_nonneg y0 (by omega)
  unfold winLen
  generalize y * s = v at *
  omega

/-- No clipped window is empty. -/
theorem PoolGeo.ext {tin tout : Tensor} {g : Geo} {src dst : Buf} {ii : Prv} {ih iw ic oh ow : Int}
    (hg : PoolGeo tin g tout ih iw ic oh ow) (hv : tin.Valid src) (ho : tout.Valid dst)
    (hchk : chkPool tin g tout = some .ok) (hii : prvHwc tin = some ii) {y x c : Int}
    (hs : InShape tout.shape [y, x, c]) :
    1 ≤ (winLen ii.height g.kh g.sh g.pt y).toNat ∧ 1 ≤ (winLen ii.width g.kw g.sw g.pl x).toNat := by
  obtain ⟨ih', iw', ic', oh', ow', oc', e1, e2, u1, u2, e3, ⟨c1, c2, c3, c4, c5, c6⟩, r1, r2⟩ := chkPool_ok hchk
  have si : tin.shape = [ih'.shape, iw'.shape, ic'.shape] := by simp [Tensor.shape, e1]
  have so : tout.shape = [oh'.shape, ow'.shape, oc'.shape] := by simp [Tensor.shape, e2]
  obtain ⟨g1, g2, ga, gw⟩ := hg
  rw [si] at g1
  rw [so] at g2 hs
  simp only [List.cons.injEq, and_true] at g1 g2
  obtain ⟨rfl, rfl, rfl⟩ := g1
  obtain ⟨rfl, rfl, gc⟩ := g2
  have ip := hv.shape_pos
  have op := ho.shape_pos
  simp only [e1, e2, List.mem_cons, List.not_mem_nil, or_false, forall_eq_or_imp, forall_eq] at ip op
  obtain ⟨A1, L1⟩ := ga.axis c3 c4 c5 ip.1 op.1 r1
  obtain ⟨A2, L2⟩ := gw.axis c1 c2 c6 ip.2.1 op.2.1 r2
  simp only [prvHwc, e1, Option.some.injEq] at hii
  subst hii
  obtain ⟨⟨y0, y1⟩, ⟨x0, x1⟩, -⟩ := hs
  have w1 := (A1.win y0 y1).2.1
  have w2 := (A2.win x0 x1).2.1
  rw [L1 y y0 y1] at w1
  rw [L2 x x0 x1] at w2
  simp only []
  omega

/-- Any window operation `K`: the pooling traversal stores at each position of the output the result
of `K` on its clipped window. -/
theorem poolHwc_run (K : WinOp) (val : List Int → Int) (tin tout : Tensor) (g : Geo) (src dst : Buf) (ii : Prv)
    (ih iw ic oh ow : Int) (hv : tin.Valid src) (ho : tout.Valid dst) (hchk : chkPool tin g tout = some .ok)
    (hg : PoolGeo tin g tout ih iw ic oh ow) (hii : prvHwc tin = some ii)
    (hK : ∀ y x c, InShape tout.shape [y, x, c] → ∀ (q rs cs : Int) (R C : Nat), 1 ≤ R → 1 ≤ C → R * C ≤ g.kh * g.kw →
      (rect q rs cs R C).Perm (winRect g ii (y, x, c)) → K src q R C rs cs = some (val [y, x, c])) :
    ∃ dst', poolHwc K src g tin tout dst = some dst' ∧ tout.Writes val dst dst' := by
  obtain ⟨ih', iw', ic', oh', ow', oc', e1, e2, u1, u2, e3, ⟨c1, c2, c3, c4, c5, c6⟩, r1, r2⟩ := chkPool_ok hchk
  have si : tin.shape = [ih'.shape, iw'.shape, ic'.shape] := by simp [Tensor.shape, e1]
  have so : tout.shape = [oh'.shape, ow'.shape, oc'.shape] := by simp [Tensor.shape, e2]
  have ti : tin.strides = [ih'.stride, iw'.stride, ic'.stride] := by simp [Tensor.strides, e1]
  have tto : tout.strides = [oh'.stride, ow'.stride, oc'.stride] := by simp [Tensor.strides, e2]
  obtain ⟨g1, g2, ga, gw⟩ := hg
  rw [si] at g1
  rw [so] at g2
  simp only [List.cons.injEq, and_true] at g1 g2
  obtain ⟨rfl, rfl, rfl⟩ := g1
  obtain ⟨rfl, rfl, gc⟩ := g2
  have ip := hv.shape_pos
  have op := ho.shape_pos
  simp only [e1, e2, List.mem_cons, List.not_mem_nil, or_false, forall_eq_or_imp, forall_eq] at ip op
  obtain ⟨A1, L1⟩ := ga.axis c3 c4 c5 ip.1 op.1 r1
  obtain ⟨A2, L2⟩ := gw.axis c1 c2 c6 ip.2.1 op.2.1 r2
  have hii' : ii = { ptr := tin.base, width := iw'.shape, height := ih'.shape, ch := ic'.shape, col := iw'.stride, row := ih'.stride } := by
    simp only [prvHwc, e1, Option.some.injEq] at hii; exact hii.symm
  unfold poolHwc
  simp only [hii, Option.bind_eq_bind, Option.bind_some]
  simp only [prvHwc, e2, Option.bind_some]
  generalize hO : ({ ptr := tout.base, width := ow'.shape, height := oh'.shape, ch := oc'.shape, col := ow'.stride, row := oh'.stride } : Prv) = o
  have hw' : o.width = ow'.shape := by rw [← hO]
  have hh' : o.height = oh'.shape := by rw [← hO]
  have hiw : ii.width = iw'.shape := by rw [hii']
  have hih : ii.height = ih'.shape := by rw [hii']
  simp only [hiw, hih]
  rw [show (if ow'.shape * g.sw + g.kw - g.sw - iw'.shape - g.pl < 0 then
      iw'.shape + (ow'.shape * g.sw + g.kw - g.sw - iw'.shape - g.pl) else iw'.shape) =
      iw'.shape + min (ow'.shape * g.sw + g.kw - g.sw - iw'.shape - g.pl) 0 by split <;> omega,
    show (if oh'.shape * g.sh + g.kh - g.sh - ih'.shape - g.pt < 0 then
      ih'.shape + (oh'.shape * g.sh + g.kh - g.sh - ih'.shape - g.pt) else ih'.shape) =
      ih'.shape + min (oh'.shape * g.sh + g.kh - g.sh - ih'.shape - g.pt) 0 by split <;> omega]
  have addrEq : ∀ y x c : Int, prvAddr o (y, x, c) = tout.addr [y, x, c] := by
    intro y x c
    simp only [prvAddr, Tensor.addr, tto, offset, ← hO, u2]
    ring
  have inEq : ∀ y x c : Int, prvIn o (y, x, c) ↔ InShape tout.shape [y, x, c] := by
    intro y x c
    simp only [prvIn, so, InShape, ← hO]
    tauto
  obtain ⟨d', h1, h2⟩ := poolWrapper_whole (K := K) (src := src) (d := dst)
    (g := { g with pr := max (ow'.shape * g.sw + g.kw - g.sw - iw'.shape - g.pl) 0,
                   pb := max (oh'.shape * g.sh + g.kh - g.sh - ih'.shape - g.pt) 0 })
    (i := { ii with width := iw'.shape + min (ow'.shape * g.sw + g.kw - g.sw - iw'.shape - g.pl) 0,
                    height := ih'.shape + min (oh'.shape * g.sh + g.kh - g.sh - ih'.shape - g.pt) 0 })
    (o := o) (val := fun p => val [p.1, p.2.1, p.2.2])
    { ah := by rw [hh']; exact A1
      aw := by rw [hw']; exact A2
      ch := by rw [← hO, hii']; exact e3
      coh := by
        rintro ⟨y, x, c⟩ ⟨y', x', c'⟩ h1 h2 e
        rw [addrEq, addrEq] at e
        have := c09_accepted_no_alias tout ho.accepted [y, x, c] [y', x', c'] ((inEq _ _ _).1 h1) ((inEq _ _ _).1 h2)
          (by unfold Tensor.addr at e; omega)
        simp only []
        rw [this]
      bnd := by
        rintro ⟨y, x, c⟩ h1
        rw [addrEq]
        exact ho.inBounds ((inEq _ _ _).1 h1)
      win := by
        rintro ⟨y, x, c⟩ h1 q rs cs R C hR hC hRC hp
        refine hK y x c ((inEq _ _ _).1 h1) q rs cs R C hR hC hRC ?_
        refine hp.trans (List.Perm.of_eq ?_)
        simp only [winRect]
        rw [L1 y h1.1.1 (by rw [← hh']; exact h1.1.2), L2 x h1.2.1.1 (by rw [← hw']; exact h1.2.1.2), hiw, hih] }
  refine ⟨d', h1, h2.size, ?_, ?_⟩
  · intro is his
    obtain ⟨y, x, c, rfl⟩ : ∃ y x c, is = [y, x, c] := by
      rw [so] at his
      match is, his with
      | [y, x, c], _ => exact ⟨y, x, c, rfl⟩
    have := h2.hit (y, x, c) ((inEq _ _ _).2 his)
    rwa [addrEq] at this
  · intro a ha
    apply h2.frame
    rintro ⟨y, x, c⟩ hp
    rw [addrEq]
    exact ha _ ((inEq _ _ _).1 hp)

/-! ## C34: max pooling -/

/-- `reduce_max2D_hwc` returns the largest of the elements of the window. -/
theorem reduceMax_spec (src : Buf) (q rs cs : Int) (R C : Nat) (hR : 1 ≤ R) (hC : 1 ≤ C)
    (hb : ∀ a ∈ rect q rs cs R C, 0 ≤ a ∧ a < src.size) :
    ∃ v, reduceMax src q R C rs cs = some v ∧ (∀ a ∈ rect q rs cs R C, src.get a ≤ v) ∧
      ∃ a ∈ rect q rs cs R C, src.get a = v := by
  have hq : q ∈ rect q rs cs R C := mem_rect.2 ⟨0, 0, by omega, by omega, by simp⟩
  unfold reduceMax
  simp only [Option.bind_eq_bind, Buf.rd_some (hb q hq), Option.bind_some, Int.toNat_natCast]
  obtain ⟨v, h1, h2, h3⟩ := forRange_inv (n := R)
    (f := fun (r : Nat) => forRange C (fun (c : Nat) acc => (src.rd (q + (rs * r + cs * c))).map fun x => maxFx acc x))
    (s := src.get q)
    (fun k v => (∀ r c : Nat, r < k → c < C → src.get (q + rs * r + cs * c) ≤ v) ∧
      ∃ a ∈ rect q rs cs R C, src.get a = v)
    ⟨by intro r c h; omega, q, hq, rfl⟩
    (by
      rintro r v hr ⟨hv, hv2⟩
      obtain ⟨v', a1, a2, a3, a4⟩ := forRange_inv (n := C)
        (f := fun (c : Nat) acc => (src.rd (q + (rs * r + cs * c))).map fun x => maxFx acc x) (s := v)
        (fun k v' => v ≤ v' ∧ (∀ c : Nat, c < k → src.get (q + rs * r + cs * c) ≤ v') ∧
          ∃ a ∈ rect q rs cs R C, src.get a = v')
        ⟨le_refl _, by intro c h; omega, hv2⟩
        (by
          rintro c v' hc ⟨b1, b2, b3⟩
          have hm : q + (rs * r + cs * c) ∈ rect q rs cs R C := mem_rect.2 ⟨r, c, hr, hc, by ring⟩
          refine ⟨_, by rw [Buf.rd_some (hb _ hm), Option.map_some], ?_⟩
          have ea : q + rs * r + cs * c = q + (rs * r + cs * c) := by ring
          unfold maxFx
          split
          · rename_i hgt
            refine ⟨b1, ?_, b3⟩
            intro c' hc'
            by_cases e : c' = c
            · subst e; rw [ea]; omega
            · exact b2 c' (by omega)
          · rename_i hgt
            refine ⟨by omega, ?_, _, hm, rfl⟩
            intro c' hc'
            by_cases e : c' = c
            · subst e; rw [ea]
            · have := b2 c' (by omega); omega)
      refine ⟨v', a1, ?_, a4⟩
      intro r' c' hr' hc'
      by_cases e : r' = r
      · subst e; exact a3 c' hc'
      · have := hv r' c' (by omega) hc'; omega)
  refine ⟨v, h1, ?_, h3⟩
  intro a ha
  obtain ⟨r, c, hr, hc, rfl⟩ := mem_rect.1 ha
  exact h2 r c hr hc

/-- The clipped window is the set of addresses of the taps inside of the input. -/
theorem mem_winRect {tin : Tensor} {g : Geo} {ii : Prv} {ih iw ic : Int}
    (hs : tin.shape = [ih, iw, ic]) (hin : innerOne tin = true) (hii : prvHwc tin = some ii) {y x c a : Int} :
    a ∈ winRect g ii (y, x, c) ↔ ∃ i j, (0 ≤ i ∧ i < g.kh) ∧ (0 ≤ j ∧ j < g.kw) ∧
      (0 ≤ tapCoord g.sh g.pt 1 y i ∧ tapCoord g.sh g.pt 1 y i < ih) ∧
      (0 ≤ tapCoord g.sw g.pl 1 x j ∧ tapCoord g.sw g.pl 1 x j < iw) ∧
      a = tin.addr [tapCoord g.sh g.pt 1 y i, tapCoord g.sw g.pl 1 x j, c] := by
  obtain ⟨a1, a2, a3, hd⟩ : ∃ a1 a2 a3, tin.dims = [a1, a2, a3] := by
    unfold prvHwc at hii
    split at hii
    · rename_i h w c e; exact ⟨h, w, c, e⟩
    · cases hii
  simp only [prvHwc, hd, Option.some.injEq] at hii
  subst hii
  simp only [Tensor.shape, hd, List.map_cons, List.map_nil, List.cons.injEq, and_true] at hs
  obtain ⟨rfl, rfl, rfl⟩ := hs
  simp only [innerOne, Tensor.strides, hd, List.map_cons, List.map_nil, List.getLast?_cons_cons,
    List.getLast?_singleton, beq_iff_eq] at hin
  simp only [winRect, mem_rect, Tensor.addr, Tensor.strides, hd, List.map_cons, List.map_nil, offset, hin, tapCoord,
    winLo, winLen]
  constructor
  · rintro ⟨r, cc, hr, hcc, rfl⟩
    refine ⟨max 0 (y * g.sh - g.pt) + r - (y * g.sh - g.pt), max 0 (x * g.sw - g.pl) + cc - (x * g.sw - g.pl), ?_, ?_, ?_, ?_, ?_⟩
    · generalize y * g.sh = v at *; omega
    · generalize x * g.sw = v at *; omega
    · generalize y * g.sh = v at *; omega
    · generalize x * g.sw = v at *; omega
    · ring
  · rintro ⟨i, j, hi, hj, h1, h2, rfl⟩
    refine ⟨(y * g.sh - g.pt + i * 1 - max 0 (y * g.sh - g.pt)).toNat, (x * g.sw - g.pl + j * 1 - max 0 (x * g.sw - g.pl)).toNat, ?_, ?_, ?_⟩
    · generalize y * g.sh = v at *; omega
    · generalize x * g.sw = v at *; omega
    · rw [show (((y * g.sh - g.pt + i * 1 - max 0 (y * g.sh - g.pt)).toNat : Nat) : Int) = y * g.sh - g.pt + i * 1 - max 0 (y * g.sh - g.pt) by
            generalize y * g.sh = v at *; omega,
          show (((x * g.sw - g.pl + j * 1 - max 0 (x * g.sw - g.pl)).toNat : Nat) : Int) = x * g.sw - g.pl + j * 1 - max 0 (x * g.sw - g.pl) by
            generalize x * g.sw = v at *; omega]
      ring

/-- C34 (partial): for every accepted input, geometry and output whose padding is not more than the
output positions step over, max pooling stores at every output position the largest input element in
its window and writes nothing else.  Missing: larger paddings, where the claim is false
(`c34_left_padding_violated`, `c34_right_padding_violated`), and sizes beyond 31 bits. -/
theorem c34_maxpool_partial (tin tout : Tensor) (g : Geo) (src dst : Buf) (ih iw ic oh ow : Int)
    (hv : tin.Valid src) (ho : tout.Valid dst) (hchk : chkPool tin g tout = some .ok)
    (hg : PoolGeo tin g tout ih iw ic oh ow) :
    ∃ dst' val, krnMaxpool src tin g tout dst = some (.ok, dst') ∧ tout.Writes val dst dst' ∧
      ∀ y x c, InShape tout.shape [y, x, c] →
        IsWindowMax (fun r q => src.get (tin.addr [r, q, c])) ih iw g.kh g.kw g.sh g.sw g.pt g.pl y x (val [y, x, c]) := by
  obtain ⟨d1, d2, d3, d4, d5, d6, e1, e2, u1, u2, e3, -⟩ := chkPool_ok hchk
  have hin : innerOne tin = true := by simp [innerOne, Tensor.strides, e1, u1]
  obtain ⟨ii, hii⟩ : ∃ ii, prvHwc tin = some ii := by simp [prvHwc, e1]
  have hc : ∀ y x c, InShape tout.shape [y, x, c] → ∃ v, ∀ (q rs cs : Int) (R C : Nat), 1 ≤ R → 1 ≤ C →
      (rect q rs cs R C).Perm (winRect g ii (y, x, c)) → reduceMax src q R C rs cs = some v ∧
      (∀ a ∈ winRect g ii (y, x, c), src.get a ≤ v) ∧ ∃ a ∈ winRect g ii (y, x, c), src.get a = v := by
    intro y x c hs
    rw [hg.sout] at hs
    have hb : ∀ a ∈ winRect g ii (y, x, c), 0 ≤ a ∧ a < src.size := by
      intro a ha
      obtain ⟨i, j, _, _, h1, h2, rfl⟩ := (mem_winRect hg.sin hin hii).1 ha
      refine hv.inBounds ?_
      rw [hg.sin]
      exact ⟨h1, h2, hs.2.2.1, trivial⟩
    have all : ∀ (q rs cs : Int) (R C : Nat), 1 ≤ R → 1 ≤ C → (rect q rs cs R C).Perm (winRect g ii (y, x, c)) →
        ∃ v, reduceMax src q R C rs cs = some v ∧ (∀ a ∈ winRect g ii (y, x, c), src.get a ≤ v) ∧
          ∃ a ∈ winRect g ii (y, x, c), src.get a = v := by
      intro q rs cs R C hR hC hp
      obtain ⟨v, h1, h2, a, h3, h4⟩ := reduceMax_spec src q rs cs R C hR hC (fun a ha => hb a (hp.mem_iff.1 ha))
      exact ⟨v, h1, fun a ha => h2 a (hp.mem_iff.2 ha), a, hp.mem_iff.1 h3, h4⟩
    by_cases hex : ∃ (q rs cs : Int) (R C : Nat), 1 ≤ R ∧ 1 ≤ C ∧ (rect q rs cs R C).Perm (winRect g ii (y, x, c))
    · obtain ⟨q, rs, cs, R, C, hR, hC, hp⟩ := hex
      obtain ⟨v, h1, h2, a, h3, h4⟩ := all q rs cs R C hR hC hp
      refine ⟨v, ?_⟩
      intro q' rs' cs' R' C' hR' hC' hp'
      obtain ⟨v', h1', h2', a', h3', h4'⟩ := all q' rs' cs' R' C' hR' hC' hp'
      have : v = v' := by
        have := h2 a' h3'
        have := h2' a h3
        omega
      subst this
      exact ⟨h1', h2', a', h3', h4'⟩
    · exact ⟨0, fun q rs cs R C hR hC hp => absurd ⟨q, rs, cs, R, C, hR, hC, hp⟩ hex⟩
  choose! val hval using hc
  obtain ⟨dst', r1, r2⟩ := poolHwc_run reduceMax (fun is => val (is.getD 0 0) (is.getD 1 0) (is.getD 2 0)) tin tout g src dst
    ii ih iw ic oh ow hv ho hchk hg hii
    (by
      intro y x c hs q rs cs R C hR hC _ hp
      exact (hval y x c hs q rs cs R C hR hC hp).1)
  refine ⟨dst', _, ?_, r2, ?_⟩
  · unfold krnMaxpool
    simp only [Option.pure_def, Option.bind_eq_bind, hchk, Option.bind_some, ne_eq, not_true_eq_false, if_false, r1]
  · intro y x c hs
    obtain ⟨w1, w2⟩ := hg.ext hv ho hchk hii hs
    obtain ⟨-, h2, a, h3, h4⟩ := hval y x c hs _ _ _ _ _ w1 w2 (List.Perm.refl _)
    refine ⟨?_, ?_⟩
    · intro i j i0 i1 j0 j1 t0 t1 t2 t3
      exact h2 _ ((mem_winRect hg.sin hin hii).2 ⟨i, j, ⟨i0, i1⟩, ⟨j0, j1⟩, ⟨t0, t1⟩, ⟨t2, t3⟩, rfl⟩)
    · obtain ⟨i, j, q1, q2, q3, q4, rfl⟩ := (mem_winRect hg.sin hin hii).1 h3
      exact ⟨i, j, q1, q2, q3, q4, h4⟩

/-- Hypotheses met: a 3 by 4 plane of two channels, window 3 by 2, stride 2, padding on all sides. -/
example :
    let tin : Tensor := { dims := [⟨3, 8⟩, ⟨4, 2⟩, ⟨2, 1⟩], cap := 24, es := 1 }
    let tout : Tensor := { dims := [⟨2, 8⟩, ⟨3, 2⟩, ⟨2, 1⟩], cap := 16, es := 1, base := 1 }
    let g : Geo := { kh := 3, kw := 2, sh := 2, sw := 2, pt := 1, pb := 1, pl := 1, pr := 1 }
    let src := Buf.ofList [1, -1, 2, -2, 3, -3, 4, -4, 5, -5, 16, -6, 7, -7, 8, -8, 9, -9, 10, -10, 11, -11, 12, -12]
    let dst := Buf.ofList (List.replicate 17 99)
    tin.Valid src ∧ tout.Valid dst ∧ chkPool tin g tout = some .ok ∧ PoolGeo tin g tout 3 4 2 2 3 ∧
    (krnMaxpool src tin g tout dst).map (fun p => (p.1, p.2.toList)) =
      some (.ok, [99, 5, -1, 16, -2, 8, -4, 99, 99, 9, -5, 16, -6, 12, -8, 99, 99]) := by
  refine ⟨⟨by decide, by decide, by decide, by decide⟩, ⟨by decide, by decide, by decide, by decide⟩, by decide,
    ⟨by decide, by decide, ⟨by decide, by decide, by decide, by decide⟩, ⟨by decide, by decide, by decide, by decide⟩⟩,
    by decide +kernel⟩

/-- The padding before the input may be so large that no output position is free of it; the kernel then
writes outside of the output: here into the element behind the single element of the output. -/
theorem c34_left_padding_violated :
    ∃ (tin tout : Tensor) (g : Geo) (src dst dst' : Buf), tin.Valid src ∧ tout.Valid dst ∧
      tin.shape = [1, 1, 1] ∧ tout.shape = [1, 1, 1] ∧ tout.base = 0 ∧ dst.get 1 = 99 ∧
      krnMaxpool src tin g tout dst = some (.ok, dst') ∧ dst'.get 1 ≠ 99 := by
  refine ⟨{ dims := [⟨1, 1⟩, ⟨1, 1⟩, ⟨1, 1⟩], cap := 1, es := 1 }, { dims := [⟨1, 1⟩, ⟨1, 1⟩, ⟨1, 1⟩], cap := 1, es := 1 },
    { kh := 1, kw := 3, sh := 1, sw := 1, pt := 0, pb := 0, pl := 2, pr := 0 }, Buf.ofList [5], Buf.ofList [99, 99], _,
    ⟨by decide, by decide, by decide, by decide⟩, ⟨by decide, by decide, by decide, by decide⟩, rfl, rfl, rfl, by decide,
    rfl, by decide +kernel⟩

/-- The same with the padding behind the input: the kernel writes the element before the output. -/
theorem c34_right_padding_violated :
    ∃ (tin tout : Tensor) (g : Geo) (src dst dst' : Buf), tin.Valid src ∧ tout.Valid dst ∧
      tin.shape = [1, 1, 1] ∧ tout.shape = [1, 1, 1] ∧ tout.base = 1 ∧ dst.get 0 = 99 ∧
      krnMaxpool src tin g tout dst = some (.ok, dst') ∧ dst'.get 0 ≠ 99 := by
  refine ⟨{ dims := [⟨1, 1⟩, ⟨1, 1⟩, ⟨1, 1⟩], cap := 1, es := 1, base := 1 },
    { dims := [⟨1, 1⟩, ⟨1, 1⟩, ⟨1, 1⟩], cap := 1, es := 1, base := 1 },
    { kh := 1, kw := 3, sh := 1, sw := 1, pt := 0, pb := 0, pl := 0, pr := 2 }, Buf.ofList [5, 77], Buf.ofList [99, 99], _,
    ⟨by decide, by decide, by decide, by decide⟩, ⟨by decide, by decide, by decide, by decide⟩, rfl, rfl, rfl, by decide,
    rfl, by decide +kernel⟩

end Mli
