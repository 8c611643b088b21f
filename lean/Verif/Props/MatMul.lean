import Verif.Spec.MatMul
import Verif.Model.MatMul
import Verif.Lemmas.Pos
import Verif.Lemmas.Math
import Verif.Props.Conv

/-! # Matrix multiplication (C44) -/

namespace Mli

open Spec

/-- The sum of an inner loop whose partial sums fit the accumulator. -/
theorem acc_sum (K : Nat) (f : Nat → Int → Option Int) (v : Nat → Int) (hf : ∀ k acc, k < K → f k acc = ckd 32 (acc + v k))
    (hs : ∀ n, n ≤ K → InRange 32 (∑ k ∈ Finset.range n, v k)) : forRange K f 0 = some (∑ k ∈ Finset.range K, v k) := by
  have : ∀ n, n ≤ K → forRange n f 0 = some (∑ k ∈ Finset.range n, v k) := by
    intro n
    induction n with
    | zero => intro _; rfl
    | succ n ih =>
      intro hn
      rw [forRange_eq_foldlM, List.range_succ, List.foldlM_append, ← forRange_eq_foldlM, ih (by omega), Finset.sum_range_succ]
      simp only [Option.bind_eq_bind, Option.bind_some, List.foldlM_cons, List.foldlM_nil]
      rw [hf n _ (by omega), ← Finset.sum_range_succ, ckd_some (hs (n + 1) hn)]
      rfl
  exact this K (le_refl _)

/-- C44: every element of the output is the sum of the products of the differences from the zero points, if every difference is an
8-bit and every partial sum a 32-bit number and the output is stored without gaps.  Missing: the other cases (see the violations). -/
theorem c44_matmul_partial (zl zr : Int) (left right dst : Buf) (tl tr tout : Tensor) (M K N sl sr : Int) (vl : tl.Valid left) (vr : tr.Valid right)
    (vo : tout.Valid dst) (hl : tl.dims = [⟨M, sl⟩, ⟨K, 1⟩]) (hr : tr.dims = [⟨K, sr⟩, ⟨N, 1⟩]) (ho : tout.dims = [⟨M, N⟩, ⟨N, 1⟩])
    (hdl : ∀ i k, InShape tl.shape [i, k] → InRange 8 (left.get (tl.addr [i, k]) - zl))
    (hdr : ∀ k j, InShape tr.shape [k, j] → InRange 8 (right.get (tr.addr [k, j]) - zr))
    (hsum : ∀ i j, InShape tout.shape [i, j] → ∀ n, n ≤ K.toNat →
      InRange 32 (matProd n (fun i k => left.get (tl.addr [i, k])) (fun k j => right.get (tr.addr [k, j])) zl zr i j)) :
    ∃ dst' val, matMulIssue 1 4 zl zr left right tl tr tout dst = some (.ok, dst') ∧ tout.Writes val dst dst' ∧
      ∀ i j, InShape tout.shape [i, j] →
        val [i, j] = matProd K.toNat (fun i k => left.get (tl.addr [i, k])) (fun k j => right.get (tr.addr [k, j])) zl zr i j := by
  have sl' : tl.shape = [M, K] := by rw [Tensor.shape, hl]; rfl
  have sr' : tr.shape = [K, N] := by rw [Tensor.shape, hr]; rfl
  have so' : tout.shape = [M, N] := by rw [Tensor.shape, ho]; rfl
  have hlo : tout.dims.length = 2 := by rw [ho]; rfl
  have al : ∀ i k, tl.addr [i, k] = tl.base + (i * sl + k) := by
    intro i k; simp [Tensor.addr, Tensor.strides, hl, offset]
  have ar : ∀ k j, tr.addr [k, j] = tr.base + (k * sr + j) := by
    intro i k; simp [Tensor.addr, Tensor.strides, hr, offset]
  have ao : ∀ i j, tout.addr [i, j] = tout.base + (i * N + j) := by
    intro i k; simp [Tensor.addr, Tensor.strides, ho, offset]
  have g0 : tout.gShape 0 = M := by simp [Tensor.gShape, ho]
  have g1 : tout.gShape 1 = N := by simp [Tensor.gShape, ho]
  have g2 : tout.gShape 2 = 1 := by simp [Tensor.gShape, ho]
  have g3 : tout.gShape 3 = 1 := by simp [Tensor.gShape, ho]
  have hN : 1 ≤ N := vo.shape_pos ⟨N, 1⟩ (by rw [ho]; simp)
  obtain ⟨dst', h1, h2⟩ := forPos_inplace tout tout dst vo rfl
    (fun is => matProd K.toNat (fun i k => left.get (tl.addr [i, k])) (fun k j => right.get (tr.addr [k, j])) zl zr (is.getD 0 0) (is.getD 1 0))
    (fun i j _ _ d =>
      (forRange K.toNat (fun k acc =>
        (left.rd (tl.base + (i * sl + k))).bind fun x =>
        (right.rd (tr.base + (k * sr + j))).bind fun y =>
        ckd 32 (acc + wrap 8 (x - zl) * wrap 8 (y - zr))) 0).bind fun v =>
      d.wr (tout.base + (i * N.toNat + j)) v)
    (fun q hq d' hd hfr => by
      have hq' := hq
      rw [Tensor.pts, mem_pts4, g0, g1, g2, g3] at hq'
      have hin : InShape tout.shape [(q.1 : Int), q.2.1] := by
        rw [so']; exact ⟨⟨by omega, by omega⟩, ⟨by omega, by omega⟩, trivial⟩
      rw [acc_sum K.toNat _ (fun k => (left.get (tl.addr [q.1, k]) - zl) * (right.get (tr.addr [k, q.2.1]) - zr)) ?_ ?_, Option.bind_some,
        show ((N.toNat : Nat) : Int) = N by omega, ← ao, hlo]
      · rfl
      · intro k acc hk
        have i1 : InShape tl.shape [(q.1 : Int), k] := by rw [sl']; exact ⟨⟨by omega, by omega⟩, ⟨by omega, by omega⟩, trivial⟩
        have i2 : InShape tr.shape [(k : Int), q.2.1] := by rw [sr']; exact ⟨⟨by omega, by omega⟩, ⟨by omega, by omega⟩, trivial⟩
        rw [← al, ← ar, vl.rd i1 rfl, Option.bind_some, vr.rd i2 rfl, Option.bind_some, wrap_of_inRange (by omega) (hdl _ _ i1),
          wrap_of_inRange (by omega) (hdr _ _ i2)]
      · exact hsum _ _ hin)
  refine ⟨dst', _, ?_, h2, fun i j _ => rfl⟩
  unfold matMulIssue
  rw [if_pos ⟨rfl, rfl⟩]
  have e1 : (tl.gShape 0) = M := by simp [Tensor.gShape, hl]
  have e2 : (tr.gShape 1) = N := by simp [Tensor.gShape, hr]
  have e3 : (tl.gShape 1) = K := by simp [Tensor.gShape, hl]
  have e4 : (tl.gStride 0) = sl := by simp [Tensor.gStride, hl]
  have e5 : (tr.gStride 0) = sr := by simp [Tensor.gStride, hr]
  rw [e1, e2, e3, e4, e5]
  unfold forPos at h1
  rw [g0, g1, g2, g3] at h1
  have h1' : matMulLoops M.toNat N.toNat K.toNat sl sr zl zr left right tl.base tr.base tout.base dst = some dst' := h1
  rw [h1']
  rfl

theorem matProd_range {K : Nat} {a b : Int → Int → Int} {za zb i j : Int} (hK : K < 131072)
    (ha : ∀ k : Nat, k < K → InRange 8 (a i k - za)) (hb : ∀ k : Nat, k < K → InRange 8 (b k j - zb)) :
    ∀ n, n ≤ K → InRange 32 (matProd n a b za zb i j) := by
  intro n hn
  have : |matProd n a b za zb i j| ≤ n * 16384 := by
    unfold matProd
    induction n with
    | zero => simp
    | succ n ih =>
      rw [Finset.sum_range_succ]
      have h1 := abs_mul_le (by omega) (by omega) (ha n (by omega)) (hb n (by omega))
      have h2 := ih (by omega)
      rw [abs_le] at *
      push_cast
      constructor <;> omega
  rw [abs_le] at this
  simp only [InRange, lo, hi]
  omega

/-- C44 without a condition on the sums: matrices with up to 131071 columns cannot overflow. -/
theorem c44_no_overflow_partial (zl zr : Int) (left right dst : Buf) (tl tr tout : Tensor) (M K N sl sr : Int) (vl : tl.Valid left)
    (vr : tr.Valid right) (vo : tout.Valid dst) (hl : tl.dims = [⟨M, sl⟩, ⟨K, 1⟩]) (hr : tr.dims = [⟨K, sr⟩, ⟨N, 1⟩])
    (ho : tout.dims = [⟨M, N⟩, ⟨N, 1⟩]) (hK : K < 131072)
    (hdl : ∀ i k, InShape tl.shape [i, k] → InRange 8 (left.get (tl.addr [i, k]) - zl))
    (hdr : ∀ k j, InShape tr.shape [k, j] → InRange 8 (right.get (tr.addr [k, j]) - zr)) :
    ∃ dst' val, matMulIssue 1 4 zl zr left right tl tr tout dst = some (.ok, dst') ∧ tout.Writes val dst dst' ∧
      ∀ i j, InShape tout.shape [i, j] →
        val [i, j] = matProd K.toNat (fun i k => left.get (tl.addr [i, k])) (fun k j => right.get (tr.addr [k, j])) zl zr i j := by
  refine c44_matmul_partial zl zr left right dst tl tr tout M K N sl sr vl vr vo hl hr ho hdl hdr (fun i j hij => ?_)
  have so' : tout.shape = [M, N] := by rw [Tensor.shape, ho]; rfl
  rw [so'] at hij
  have sl' : tl.shape = [M, K] := by rw [Tensor.shape, hl]; rfl
  have sr' : tr.shape = [K, N] := by rw [Tensor.shape, hr]; rfl
  exact matProd_range (by omega)
    (fun k hk => hdl _ _ (by rw [sl']; exact ⟨hij.1, ⟨by omega, by omega⟩, trivial⟩))
    (fun k hk => hdr _ _ (by rw [sr']; exact ⟨⟨by omega, by omega⟩, hij.2.1, trivial⟩))

def exMmL : Tensor := { dims := [⟨2, 4⟩, ⟨3, 1⟩], cap := 7, es := 1 }
def exMmR : Tensor := { dims := [⟨3, 2⟩, ⟨2, 1⟩], cap := 6, es := 1, base := 1 }
def exMmO : Tensor := { dims := [⟨2, 2⟩, ⟨2, 1⟩], cap := 16, es := 4, base := 1 }

example : exMmL.Valid (Buf.ofList [1, 2, 3, 99, -4, 5, -6, 99]) ∧ exMmR.Valid (Buf.ofList [99, 7, 8, 9, 10, 11, 12]) ∧
    exMmO.Valid (Buf.ofList [0, 0, 0, 0, 0, 0]) ∧
    (matMulIssue 1 4 1 (-2) (Buf.ofList [1, 2, 3, 99, -4, 5, -6, 99]) (Buf.ofList [99, 7, 8, 9, 10, 11, 12]) exMmL exMmR exMmO
      (Buf.ofList [0, 0, 0, 0, 0, 0])).map (fun p => (p.1, p.2.toList)) = some (.ok, [0, 37, 40, -92, -100, 0]) :=
  ⟨⟨by decide, by decide, by decide, by decide⟩, ⟨by decide, by decide, by decide, by decide⟩,
    ⟨by decide, by decide, by decide, by decide⟩, by decide +kernel⟩

/-- C44 is violated when a difference from the zero point is not an 8-bit number, although operands and zero points are: `127 - (-128)`
is stored as -1. -/
theorem c44_narrowing_violated : ∃ (left right dst dst' : Buf) (t u : Tensor), t.Valid left ∧ t.Valid right ∧ u.Valid dst ∧
    InRange 8 (left.get 0) ∧ InRange 8 (right.get 0) ∧ matMulIssue 1 4 (-128) 0 left right t t u dst = some (.ok, dst') ∧
    t.dims = [⟨1, 1⟩, ⟨1, 1⟩] ∧
    dst'.get 0 ≠ matProd 1 (fun i k => left.get (t.addr [i, k])) (fun k j => right.get (t.addr [k, j])) (-128) 0 0 0 :=
  ⟨Buf.ofList [127], Buf.ofList [3], Buf.ofList [0], ⟨1, fun a => if a = 0 then -3 else (Buf.ofList [0]).get a⟩,
    { dims := [⟨1, 1⟩, ⟨1, 1⟩], cap := 1, es := 1 }, { dims := [⟨1, 1⟩, ⟨1, 1⟩], cap := 4, es := 4 },
    ⟨by decide, by decide, by decide, by decide⟩, ⟨by decide, by decide, by decide, by decide⟩,
    ⟨by decide, by decide, by decide, by decide⟩, by decide, by decide, rfl, rfl, by decide⟩

/-- C44 is violated when the rows of the output are not adjacent: its strides are ignored. -/
theorem c44_output_stride_violated : ∃ (left right dst dst' : Buf) (tl tr u : Tensor), tl.Valid left ∧ tr.Valid right ∧ u.Valid dst ∧
    tl.dims = [⟨2, 1⟩, ⟨1, 1⟩] ∧ tr.dims = [⟨1, 1⟩, ⟨1, 1⟩] ∧ u.shape = [2, 1] ∧ matMulIssue 1 4 0 0 left right tl tr u dst = some (.ok, dst') ∧
    dst'.get (u.addr [1, 0]) ≠ matProd 1 (fun i k => left.get (tl.addr [i, k])) (fun k j => right.get (tr.addr [k, j])) 0 0 1 0 :=
  ⟨Buf.ofList [5, 7], Buf.ofList [3], Buf.ofList [0, 0, 0],
    ⟨3, fun a => if a = 1 then 21 else if a = 0 then 15 else (Buf.ofList [0, 0, 0]).get a⟩,
    { dims := [⟨2, 1⟩, ⟨1, 1⟩], cap := 2, es := 1 }, { dims := [⟨1, 1⟩, ⟨1, 1⟩], cap := 1, es := 1 },
    { dims := [⟨2, 2⟩, ⟨1, 1⟩], cap := 12, es := 4 },
    ⟨by decide, by decide, by decide, by decide⟩, ⟨by decide, by decide, by decide, by decide⟩,
    ⟨by decide, by decide, by decide, by decide⟩, rfl, rfl, rfl, rfl, by decide⟩

end Mli
