import Verif.Lemmas.Emit
import Verif.Model.Pool
import Verif.Spec.Window
import Verif.Lemmas.Math

/-! # Window arithmetic -/

namespace Mli

open Spec

theorem ceilDiv_le_iff {a b i : Int} (ha : 0 ≤ a) (hb : 0 < b) : ceilDiv a b ≤ i ↔ a ≤ i * b := by
  unfold ceilDiv
  rw [Int.tdiv_eq_ediv_of_nonneg (by omega)]
  have h1 := Int.emod_add_mul_ediv (a + b - 1) b
  have h2 := Int.emod_nonneg (a + b - 1) (b := b) (by omega)
  have h3 := Int.emod_lt_of_pos (a + b - 1) hb
  generalize (a + b - 1) / b = q at *
  generalize (a + b - 1) % b = r at *
  constructor
  · intro h
    have : b * q ≤ b * i := Int.mul_le_mul_of_nonneg_left h (by omega)
    have e : b * i = i * b := Int.mul_comm _ _
    omega
  · intro h
    by_contra hc
    have : b * (i + 1) ≤ b * q := Int.mul_le_mul_of_nonneg_left (by omega) (by omega)
    have e : b * (i + 1) = i * b + b := by ring
    omega

theorem lt_ceilDiv_iff {a b i : Int} (ha : 0 ≤ a) (hb : 0 < b) : i < ceilDiv a b ↔ i * b < a := by
  have := ceilDiv_le_iff (i := i) ha hb
  omega

theorem ceilDiv_nonneg {a b : Int} (ha : 0 ≤ a) (hb : 0 < b) : 0 ≤ ceilDiv a b := by
  unfold ceilDiv
  rw [Int.tdiv_eq_ediv_of_nonneg (by omega)]
  exact Int.ediv_nonneg (by omega) (by omega)

theorem ceilDiv_zero {b : Int} (hb : 0 < b) : ceilDiv 0 b = 0 := by
  have h1 := ceilDiv_nonneg (le_refl 0) hb
  have h2 := (ceilDiv_le_iff (i := 0) (le_refl 0) hb).2 (by omega)
  omega

theorem ceilDiv_le_self {a b : Int} (ha : 0 ≤ a) (hb : 0 < b) : ceilDiv a b ≤ a := by
  rw [ceilDiv_le_iff ha hb]; nlinarith

theorem ceilDiv_one (a : Int) : ceilDiv a 1 = a := by unfold ceilDiv; simp

/-- First input coordinate of the clipped window. -/
def winLo (s p y : Int) : Int := max 0 (y * s - p)

/-- Length of the clipped window. -/
def winLen (n k s p y : Int) : Int := min n (y * s - p + k) - max 0 (y * s - p)

/-- One axis of a pooling operation: input size `n`, kernel `k`, stride `s`, padding `p` before and `q`
behind the input (as needed), output size `o`. -/
structure Axis (n k s p q o : Int) : Prop where
  hn : n = (o - 1) * s + k - p - q
  p0 : 0 ≤ p
  pk : p < k
  q0 : 0 ≤ q
  qk : q < k
  s1 : 1 ≤ s
  o1 : 1 ≤ o
  po : p ≤ o * s
  qo : q ≤ o * s
  n1 : 1 ≤ n

theorem Axis.flip {n k s p q o : Int} (h : Axis n k s p q o) : Axis n k s q p o :=
  ⟨by have := h.hn; omega, h.q0, h.qk, h.p0, h.pk, h.s1, h.o1, h.qo, h.po, h.n1⟩

theorem Axis.bounds {n k s p q o y : Int} (h : Axis n k s p q o) (h0 : 0 ≤ y) (h1 : y < o) :
    0 ≤ y * s ∧ y * s ≤ (o - 1) * s := by
  have := h.s1
  exact ⟨Int.mul_nonneg h0 (by omega), Int.mul_le_mul_of_nonneg_right (by omega) (by omega)⟩

theorem Axis.win {n k s p q o y : Int} (h : Axis n k s p q o) (h0 : 0 ≤ y) (h1 : y < o) :
    0 ≤ winLo s p y ∧ 1 ≤ winLen n k s p y ∧ winLo s p y + winLen n k s p y ≤ n ∧ winLen n k s p y ≤ k := by
  obtain ⟨a, b⟩ := h.bounds h0 h1
  obtain ⟨hn, p0, pk, q0, qk, s1, o1, po, qo, n1⟩ := h
  unfold winLo winLen
  generalize y * s = u at *
  generalize (o - 1) * s = v at *
  omega

theorem Axis.mirror {n k s p q o y : Int} (h : Axis n k s p q o) :
    winLo s q y = n - (winLo s p (o - 1 - y) + winLen n k s p (o - 1 - y)) ∧
    winLen n k s q y = winLen n k s p (o - 1 - y) := by
  obtain ⟨hn, p0, pk, q0, qk, s1, o1, po, qo, n1⟩ := h
  have e : (o - 1 - y) * s = (o - 1) * s - y * s := by ring
  unfold winLo winLen
  rw [e]
  generalize y * s = u at *
  generalize (o - 1) * s = v at *
  omega

/-- Positions below the end of the unpadded part do not reach behind the input. -/
theorem Axis.before_end {n k s p q o y : Int} (h : Axis n k s p q o) (hy : y < o - ceilDiv q s) :
    y * s - p + k ≤ n := by
  obtain ⟨hn, p0, pk, q0, qk, s1, o1, po, qo, n1⟩ := h
  have := (ceilDiv_le_iff (i := o - 1 - y) q0 (b := s) (by omega)).1 (by omega)
  have e : (o - 1 - y) * s = (o - 1) * s - y * s := by ring
  omega

theorem Axis.after_begin {n k s p q o y : Int} (h : Axis n k s p q o) (hy : ceilDiv p s ≤ y) : 0 ≤ y * s - p := by
  have := (ceilDiv_le_iff (i := y) h.p0 (b := s) (by have := h.s1; omega)).1 hy
  omega

/-- The end of the unpadded part as the code computes it. -/
theorem Axis.nopad_end {n k s p q o : Int} (h : Axis n k s p q o) : ceilDiv (n + p - k + 1) s = o - ceilDiv q s := by
  obtain ⟨hn, p0, pk, q0, qk, s1, o1, po, qo, n1⟩ := h
  have hc := ceilDiv_nonneg q0 (b := s) (by omega)
  have hco : ceilDiv q s ≤ o := (ceilDiv_le_iff q0 (by omega)).2 qo
  rw [show n + p - k + 1 = (o - 1) * s - q + 1 by omega]
  have g1 := fun i => ceilDiv_le_iff (i := i) q0 (b := s) (by omega)
  generalize hC : ceilDiv q s = C at *
  have h1 := (g1 C).1 (le_refl _)
  have h2 : ¬ (q ≤ (C - 1) * s) := by rw [← g1]; omega
  have e2 : (C - 1) * s = C * s - s := by ring
  have e1 : (o - 1) * s = o * s - s := by ring
  have e3 : (o - C) * s = o * s - C * s := by ring
  have e4 : (o - C - 1) * s = o * s - C * s - s := by ring
  unfold ceilDiv
  rw [Int.tdiv_eq_ediv_of_nonneg (by omega)]
  rw [Int.ediv_eq_iff_of_pos (by omega)]
  have e5 : s * (o - C) = o * s - C * s := by ring
  constructor <;> nlinarith

end Mli
