import Verif.Model.EncodeWts
import Verif.Props.Link
import Verif.Props.BufSize

/-! # C86: encoded weights and zero points -/

namespace Mli.Rt

open Mli Mli.Iter Mli.Spec

/-- Spec: from byte `at_` on the buffer `e'` holds `f 0, …, f (n-1)`; everything else is as in `e`. -/
def Patched (e e' : HostBuf) (at_ n : Int) (f : Int → Int) : Prop :=
  e'.size = e.size ∧ e'.es = e.es ∧ e'.mem.size = e.mem.size ∧
  ∀ a, e'.mem.get a = if at_ ≤ a ∧ a < at_ + n then f (a - at_) else e.mem.get a

/-- Spec: the first `size` bytes exist. -/
def HostBuf.Real (b : HostBuf) : Prop := 0 ≤ b.size ∧ b.size < 2 ^ 32 ∧ b.size ≤ b.mem.size

theorem fill_ok (n : Nat) (f : Int → Option Int) (g : Int → Int) (at_ : Int) (b : HostBuf) (hes : b.es = 1) (h0 : 0 ≤ at_)
    (hf : ∀ i : Nat, i < n → f i = some (g i)) (hn : at_ + n ≤ b.mem.size) :
    ∃ b', b.fill n f at_ = some b' ∧ Patched b b' at_ n g := by
  unfold HostBuf.fill
  induction n with
  | zero => exact ⟨b, rfl, rfl, rfl, rfl, fun a => by rw [if_neg (by omega)]⟩
  | succ n ih =>
    obtain ⟨b1, e1, p1, p2, p3, p4⟩ := ih (fun i hi => hf i (by omega)) (by omega)
    rw [forRange, e1, Option.bind_some, hf n (by omega), Option.bind_some]
    unfold HostBuf.write8 Buf.wr
    rw [if_pos (by rw [p2, hes]), if_pos (by rw [p3]; omega), Option.map_some]
    refine ⟨_, rfl, p1, p2, p3, fun a => ?_⟩
    simp only
    by_cases ha : a = at_ + n
    · subst ha
      rw [if_pos rfl, if_pos (by omega)]
      congr 1; omega
    · rw [if_neg ha, p4 a]
      by_cases hb : at_ ≤ a ∧ a < at_ + n
      · rw [if_pos hb, if_pos (by omega)]
      · rw [if_neg hb, if_neg (by omega)]

theorem read8_ok {b : HostBuf} (hes : b.es = 1) {i : Int} (h0 : 0 ≤ i) (h1 : i < b.mem.size) : b.read8 i = some (b.mem.get i) := by
  unfold HostBuf.read8
  rw [if_pos hes, Buf.rd_some ⟨h0, h1⟩]

/-- C86: `EncodeWeightsAndZeroPts` of 8-bit weights and zero points writes the weights and, behind them, the zero points, and nothing
else. -/
theorem c86_weights_and_zp (w z enc : HostBuf) (hw : w.Real) (hz : z.Real) (ew : w.es = 1) (ez : z.es = 1) (ee : enc.es = 1)
    (hs : w.size + z.size ≤ enc.mem.size) :
    ∃ enc', encodeWz w z enc = some (.ok, enc') ∧
      Patched enc enc' 0 (w.size + z.size) fun i => if i < w.size then w.mem.get i else z.mem.get (i - w.size) := by
  obtain ⟨w0, -, w1⟩ := hw
  obtain ⟨z0, -, z1⟩ := hz
  obtain ⟨e1, h1, p1, p2, p3, p4⟩ := fill_ok w.size.toNat (fun i => w.read8 i) w.mem.get 0 enc ee (le_refl _)
    (fun i hi => read8_ok ew (by omega) (by omega)) (by omega)
  obtain ⟨e2, h2, q1, q2, q3, q4⟩ := fill_ok z.size.toNat (fun i => z.read8 i) z.mem.get w.size e1 (by rw [p2, ee]) w0
    (fun i hi => read8_ok ez (by omega) (by omega)) (by omega)
  refine ⟨e2, ?_, by rw [q1, p1], by rw [q2, p2], by rw [q3, p3], fun a => ?_⟩
  · unfold encodeWz
    rw [if_pos ⟨ew, ez⟩, h1, Option.bind_some, h2, Option.map_some]
  · rw [q4 a, p4 a]
    simp only [Int.sub_zero]
    by_cases ha : w.size ≤ a ∧ a < w.size + z.size.toNat
    · rw [if_pos ha, if_pos (by omega), if_neg (by omega)]
    · rw [if_neg ha]
      by_cases hb : 0 ≤ a ∧ a < w.size
      · rw [if_pos (by omega), if_pos (by omega), if_pos hb.2]
      · rw [if_neg (by omega), if_neg (by omega)]

/-- C86: other element sizes are refused and nothing is written. -/
theorem c86_unsupported (w z enc : HostBuf) (h : w.es ≠ 1 ∨ z.es ≠ 1) : encodeWz w z enc = some (.notSupported, enc) := by
  unfold encodeWz
  rw [if_neg (by rintro ⟨a, b⟩; rcases h with h | h <;> contradiction)]

/-- C86, `EncodeWeights`: the bytes of the weights in the order in which they are in memory.  Partial: the weights tensor must start at the
begin of its buffer (`c86_window_violated`). -/
theorem c86_weights_partial (w enc : HostBuf) (hw : w.Real) (ew : w.es = 1) (ee : enc.es = 1) (hs : w.size ≤ enc.mem.size) :
    ∃ enc', encodeWeights w 0 enc = some (.ok, enc') ∧ Patched enc enc' 0 w.size w.mem.get := by
  obtain ⟨w0, -, w1⟩ := hw
  obtain ⟨e1, h1, p⟩ := fill_ok w.size.toNat (fun i => w.read8 (i + 0)) w.mem.get 0 enc ee (le_refl _)
    (fun i hi => by rw [Int.add_zero]; exact read8_ok ew (by omega) (by omega)) (by omega)
  refine ⟨e1, ?_, ?_⟩
  · unfold encodeWeights; rw [if_pos ew, h1, Option.map_some]
  · rwa [Int.toNat_of_nonneg w0] at p

/-- C86, `EncodeZeroPts`: one zero point means quantisation for the whole tensor (axis −1), as many as channels mean quantisation per
channel; both are written to the begin of the buffer.  Any other number is refused, and then neither the buffer nor the axis
changes. -/
theorem c86_zero_points (axis len : Int) (z : HostBuf) (d qa : Int) (enc : HostBuf) (ez : z.es = 1) (ee : enc.es = 1) (hd : 1 ≤ d)
    (hz : d ≤ z.mem.size) (hs : d ≤ enc.mem.size) :
    ∃ st qa' enc', encodeZeroPts axis len z 0 d qa enc = some (st, qa', enc') ∧
      (st = .ok ∨ st = .shapeMismatch) ∧ (st = .ok ↔ d = 1 ∨ d = len) ∧
      (st = .ok → qa' = (if d = 1 then -1 else axis) ∧ Patched enc enc' 0 d z.mem.get) ∧
      (st ≠ .ok → qa' = qa ∧ enc' = enc) := by
  unfold encodeZeroPts
  by_cases h : d ≠ 1 ∧ d ≠ len
  · rw [if_pos h]
    exact ⟨.shapeMismatch, qa, enc, rfl, Or.inr rfl, by simp; omega, by simp, fun _ => ⟨rfl, rfl⟩⟩
  rw [if_neg h]
  obtain ⟨e1, h1, p⟩ := fill_ok d.toNat (fun i => z.read8 (i + 0)) z.mem.get 0 enc ee (le_refl _)
    (fun i hi => by rw [Int.add_zero]; exact read8_ok ez (by omega) (by omega)) (by omega)
  rw [if_pos ez, h1, Option.map_some]
  rw [Int.toNat_of_nonneg (by omega)] at p
  refine ⟨.ok, _, e1, rfl, Or.inl rfl, ?_, fun _ => ⟨rfl, p⟩, fun h => absurd rfl h⟩
  simp only [true_iff]; omega

theorem read1_ok {r : IntBuf} (hes : r.es = 1) {i v : Int} {mem : Buf} (h0 : 0 ≤ r.ptr + i) (h1 : r.ptr + i < mem.size)
    (hg : mem.get (r.ptr + i) = v % 256) (hv : InRange 8 v) : r.read 1 i mem = some v := by
  unfold IntBuf.read
  rw [if_pos (by rw [hes]; rfl)]
  have e : r.ptr + ((1 : Nat) : Int) * i = r.ptr + i := by push_cast; ring
  rw [e]
  apply getLe_ok (le_refl _) h0 (by push_cast; omega) _ hv
  intro k hk
  have : k = 0 := by omega
  subst this
  simpa using hg

/-- C86: what a fully connected layer finds at run time.  The user encodes weights and zero points to a buffer, attaches it, and loads it
to the memory the attached buffer is linked to.  Then element `i` of the linked weights is weight `i`, and element `j` of the linked
zero points is zero point `j`; the buffer of the zero points has exactly their size.  The buffer of the weights must
have the size that `GetWeightsBufferSize` reports. -/
theorem c86_fc_delivers (shape strides : List Int) (w z enc enc' : HostBuf) (hw : w.Real) (hz : z.Real) (ew : w.es = 1) (ez : z.es = 1)
    (ee : enc.es = 1) (hs : w.size + z.size ≤ enc.mem.size) (he : encodeWz w z enc = some (.ok, enc'))
    (vw : ∀ i, 0 ≤ i → i < w.size → InRange 8 (w.mem.get i)) (vz : ∀ i, 0 ≤ i → i < z.size → InRange 8 (z.mem.get i))
    (hsize : w.size = bufSize shape strides) (hz1 : 1 ≤ z.size)
    (bases lens : List Int) (mem : Buf) (hm : MemMap bases lens mem.size) (b : OffBuf) (hb : b.InMem lens) (h32 : b.off + b.size < 2 ^ 32)
    (hbe : b.es = 1) (hbs : b.size = w.size + z.size) (r : IntBuf) (hr : b.link bases = some r)
    (hload : ∀ i, 0 ≤ i → i < b.size → mem.get (r.ptr + i) = enc'.mem.get i % 256) :
    ∃ zb rz, fcZpBuf shape strides b = some zb ∧ zb.link bases = some rz ∧ rz.size = z.size ∧
      (∀ i, 0 ≤ i → i < w.size → r.read 1 i mem = some (w.mem.get i)) ∧
      (∀ j, 0 ≤ j → j < z.size → rz.read 1 j mem = some (z.mem.get j)) := by
  obtain ⟨enc2, h2, -, -, -, p4⟩ := c86_weights_and_zp w z enc hw hz ew ez ee hs
  rw [he] at h2
  simp only [Option.some.injEq, Prod.mk.injEq, true_and] at h2
  subst h2
  obtain ⟨w0, w2, w1⟩ := hw
  obtain ⟨z0, z2, z1⟩ := hz
  have hsub : fcZpBuf shape strides b = b.sub w.size := by
    unfold fcZpBuf
    rw [hbe, Int.mul_one, ← hsize, u32_id (by omega)]
  obtain ⟨s1, s2⟩ := c79_sub lens b hb h32 w.size w0
  obtain ⟨zb, hzb⟩ : ∃ zb, b.sub w.size = some zb := by
    rw [← Option.isSome_iff_exists, Option.isSome_iff_ne_none, ne_eq, s1]; omega
  obtain ⟨k1, k2, k3, k4, k5, -⟩ := s2 zb hzb
  obtain ⟨l1, l2, l3⟩ := link_eq hm hb (by omega)
  obtain ⟨m1, m2, m3⟩ := link_eq hm k1 (by omega)
  rw [hr] at l1
  simp only [Option.some.injEq] at l1
  subst l1
  simp only at hload p4
  rw [k2] at m1 m2 m3
  refine ⟨zb, _, by rw [hsub, hzb], m1, by simp only; omega, fun i i0 i1 => ?_, fun j j0 j1 => ?_⟩
  · refine read1_ok hbe (by simp only; omega) (by simp only; omega) ?_ (vw i i0 i1)
    simp only
    rw [hload i i0 (by omega), p4 i, if_pos (by omega), Int.sub_zero, if_pos i1]
  · refine read1_ok (by simp only; rw [k5, hbe]) (by simp only; omega) (by simp only; omega) ?_ (vz j j0 j1)
    simp only
    have := hload (w.size + j) (by omega) (by omega)
    rw [p4 (w.size + j), if_pos (by omega), if_neg (by omega), show w.size + j - 0 - w.size = j by omega] at this
    rw [← this, k3]
    congr 1; ring

/-- C86 fails for a buffer of the size that `GetEncodedWeightsSize` reports: the zero points are written behind it. -/
theorem c86_size_violated :
    encodedWeightsSize [2, 2] [2, 1] = 4 ∧
    encodeWz ⟨Buf.ofList [1, 2, 3, 4], 4, 1⟩ ⟨Buf.ofList [5, 6], 2, 1⟩ ⟨Buf.ofList [0, 0, 0, 0], 4, 1⟩ = none := by
  refine ⟨by decide, ?_⟩
  simp [encodeWz, HostBuf.fill, forRange, HostBuf.read8, HostBuf.write8, Buf.rd, Buf.wr, Buf.ofList]

/-- C86 fails for a weights tensor that is a window of its buffer: `EncodeWeights` reads behind the buffer. -/
theorem c86_window_violated : encodeWeights ⟨Buf.ofList [1, 2, 3, 4], 4, 1⟩ 2 ⟨Buf.ofList [0, 0, 0, 0], 4, 1⟩ = none := by
  simp [encodeWeights, HostBuf.fill, forRange, HostBuf.read8, HostBuf.write8, Buf.rd, Buf.wr, Buf.ofList]

/-- C86 fails for the input zero points of a convolution (and a transposed convolution): the number of channels is read from the group dimension, so one zero
point for each of several channels is refused, for all inputs with one group. -/
theorem c86_input_axis_violated (b h wd c qa : Int) (z enc : HostBuf) (hc : c ≠ 1) :
    convInpZp [b, h, wd, 1, c] z c qa enc = some (.shapeMismatch, qa, enc) := by
  unfold convInpZp encodeZeroPts
  rw [if_pos ⟨hc, by simpa using hc⟩]

/-- The same request for a depthwise convolution is accepted. -/
example : (dwInpZp [1, 4, 4, 1, 3] ⟨Buf.ofList [7, 8, 9], 3, 1⟩ 3 0 ⟨Buf.ofList [0, 0, 0], 3, 1⟩).map (fun r => (r.1, r.2.1, r.2.2.mem.toList)) =
    some (.ok, 4, [7, 8, 9]) := by decide +kernel

example : (encodeWz ⟨Buf.ofList [1, -2, 3], 3, 1⟩ ⟨Buf.ofList [5, 6], 2, 1⟩ ⟨Buf.ofList [0, 0, 0, 0, 0, 9], 5, 1⟩).map
    (fun r => (r.1, r.2.mem.toList)) = some (.ok, [1, -2, 3, 5, 6, 9]) := by decide +kernel

/-- The hypotheses of `c86_fc_delivers` for a layer of 2 inputs and 2 outputs. -/
example : fcZpBuf [2, 2] [2, 1] ⟨8, 1, 6, 1⟩ = some ⟨12, 1, 2, 1⟩ ∧ MemMap [100, 16] [40, 64] 200 ∧ OffBuf.InMem ⟨8, 1, 6, 1⟩ [40, 64] ∧
    (encodeWz ⟨Buf.ofList [1, 2, 3, 4], 4, 1⟩ ⟨Buf.ofList [5, 6], 2, 1⟩ ⟨Buf.ofList [0, 0, 0, 0, 0, 0], 6, 1⟩).isSome ∧
    HostBuf.Real ⟨Buf.ofList [1, 2, 3, 4], 4, 1⟩ :=
  ⟨by decide, ⟨rfl, by decide, by decide, by decide⟩, ⟨by decide, by decide, by decide, by decide⟩, by decide +kernel, ⟨by decide, by decide, by decide⟩⟩

end Mli.Rt
