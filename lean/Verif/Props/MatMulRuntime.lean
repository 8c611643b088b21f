import Verif.Lemmas.MatMulRuntime
import Verif.Props.UnRuntime

/-! # The run-time kernel MATMUL tile by tile (C74) -/

namespace Mli.Rt

open Mli Mli.Iter Mli.Spec

/-- The tiles of the three matrices correspond, if only the rows or only the columns of the output are tiled. -/
theorem matmul_at {M K N h w : Int} (hw : w = N ∨ (h = M ∧ w ∣ N)) (hL : TilingOk [M, K] [h, K] (List.range 2) 0)
    (hR : TilingOk [K, N] [K, w] (List.range 2) 0) (hO : TilingOk [M, N] [h, w] (List.range 2) 0) (ll lr lo : List Int) (n : Nat) :
    ∃ r0 rows c0 : Int, 1 ≤ rows ∧
      ((tileIt [M, K] [h, K] ll).at n).getPos = [r0, 0] ∧ ((tileIt [M, K] [h, K] ll).at n).sizes = [rows, K] ∧
      ((tileIt [K, N] [K, w] lr).at n).getPos = [0, c0] ∧ ((tileIt [K, N] [K, w] lr).at n).sizes = [K, w] ∧
      ((tileIt [M, N] [h, w] lo).at n).getPos = [r0, c0] ∧ ((tileIt [M, N] [h, w] lo).at n).sizes = [rows, w] := by
  have hK : TileOk K K 0 := hR.dims 0 (show 0 < 2 by decide)
  have hM : TileOk M h 0 := hL.dims 0 (show 0 < 2 by decide)
  have hN : TileOk N w 0 := hR.dims 1 (show 1 < 2 by decide)
  obtain ⟨l1, l2⟩ := mat_at hL ll n
  obtain ⟨r1, r2⟩ := mat_at hR lr n
  obtain ⟨o1, o2⟩ := mat_at hO lo n
  simp only [(untiled hK 0).1, Int.emod_one, Int.ediv_one, (untiled hK 0).2.1, (untiled hK _).2.2] at l1 l2 r1 r2
  obtain ⟨qM, -, -, -, -, mM, -, cM, -⟩ := tileDim_facts 0 hM
  obtain ⟨qN, -, -, -, -, mN, -, cN, -⟩ := tileDim_facts 0 hN
  have hcol : (n : Int) % (tileDim 0 N w 0).count = n / (tileDim 0 M h 0).count % (tileDim 0 N w 0).count := by
    rcases hw with rfl | ⟨rfl, -⟩
    · rw [(untiled hN 0).1]; simp
    · rw [(untiled hM 0).1]; simp
  have hdvd : w ∣ N := by
    rcases hw with rfl | ⟨-, h⟩
    · exact dvd_refl _
    · exact h
  have hj : 0 ≤ (n : Int) % (tileDim 0 N w 0).count ∧ (n : Int) % (tileDim 0 N w 0).count < (tileDim 0 N w 0).count :=
    ⟨Int.emod_nonneg _ (by omega), Int.emod_lt_of_pos _ (by omega)⟩
  have hi : 0 ≤ (n : Int) % (tileDim 0 M h 0).count ∧ (n : Int) % (tileDim 0 M h 0).count < (tileDim 0 M h 0).count :=
    ⟨Int.emod_nonneg _ (by omega), Int.emod_lt_of_pos _ (by omega)⟩
  rw [full_tile hN hdvd hj] at r2
  rw [← hcol] at o1 o2
  rw [full_tile hN hdvd hj] at o2
  exact ⟨_, _, _, (tileDim_spec 0 hM _ hi).2.1, l1, l2, r1, r2, o1, o2⟩

/-- C74: with the rows of the left input and of the output tiled (or, if all rows are in one tile, with the columns of the right input and of the output
tiled in tiles of one width), the caller's loop puts the product of the whole matrices into the output in global memory and changes nothing else; all
calls report success.  The caller takes the position of the right tile from its iterator.  Missing: the position that the kernel reports
(`c74_right_position_violated`), a last tile with fewer columns (`c74_narrow_tile_violated`), differences that are not 8-bit numbers and outputs with gaps
in the local buffer (C44). -/
theorem c74_matmul_tiled_partial (M K N h w : Int) (hw : w = N ∨ (h = M ∧ w ∣ N)) (sl sr bl br bo pb zl zr : Int) (gl gr : Glob) (gos : List Int)
    (ml mr mo gout pm : Buf) (h1 : SideOk [M, K] [h, K] [sl, 1] bl ml.size gl.strides gl.buf.size)
    (h2 : SideOk [K, N] [K, w] [sr, 1] br mr.size gr.strides gr.buf.size) (h3 : SideOk [M, N] [h, w] [w, 1] bo mo.size gos gout.size)
    (ginj : ∀ x y, InShape [M, N] x → InShape [M, N] y → offset gos x = offset gos y → x = y)
    (hzl : getLe 1 pb pm = some zl) (hzr : getLe 1 (pb + 1) pm = some zr)
    (hdl : ∀ i k, InShape [M, K] [i, k] → InRange 8 (gl.buf.get (offset gl.strides [i, k]) - zl))
    (hdr : ∀ k j, InShape [K, N] [k, j] → InRange 8 (gr.buf.get (offset gr.strides [k, j]) - zr))
    (hsum : ∀ i j, InShape [M, N] [i, j] → ∀ n, n ≤ K.toNat → InRange 32
      (matProd n (fun i k => gl.buf.get (offset gl.strides [i, k])) (fun k j => gr.buf.get (offset gr.strides [k, j])) zl zr i j)) :
    let out := tileIt [M, N] [h, w] [w, 1]
    ∃ s, MatMulHost.run (fun o => o.right.getPos) gl gr gos pm (totalCount out.cfg).toNat
        ⟨MatMulObj.new 1 4 (tileIt [M, K] [h, K] [sl, 1]) (tileIt [K, N] [K, w] [sr, 1]) out bl br bo pb, ml, mr, mo, gout, .ok⟩ = some s ∧ s.status = .ok ∧
      Result [M, N] gos (fun x => matProd K.toNat (fun i k => gl.buf.get (offset gl.strides [i, k])) (fun k j => gr.buf.get (offset gr.strides [k, j]))
        zl zr (x.getD 0 0) (x.getD 1 0)) gout s.gout := by
  intro out
  refine matmul_run h1 h2 h3 ginj 1 4 pb pm _ _ (fun n => rfl) ?_
  intro n l r d el er ed hl hr
  obtain ⟨r0, rows, c0, hrows, a1, a2, b1, b2, o1, o2⟩ := matmul_at hw h1.tiling h2.tiling h3.tiling [sl, 1] [sr, 1] [w, 1] n
  have p1 := tileSeq_range h1.tiling h1.rank [sl, 1]
  have p2 := tileSeq_range h2.tiling h2.rank [sr, 1]
  have p3 := tileSeq_range h3.tiling h3.rank [w, 1]
  change TileSeq _ _ _ (fun n => ((tileIt [M, K] [h, K] [sl, 1]).at n).getPos) (fun n => ((tileIt [M, K] [h, K] [sl, 1]).at n).sizes) at p1
  change TileSeq _ _ _ (fun n => ((tileIt [K, N] [K, w] [sr, 1]).at n).getPos) (fun n => ((tileIt [K, N] [K, w] [sr, 1]).at n).sizes) at p2
  change TileSeq _ _ _ (fun n => ((tileIt [M, N] [h, w] [w, 1]).at n).getPos) (fun n => ((tileIt [M, N] [h, w] [w, 1]).at n).sizes) at p3
  have g1 := fun y hy => p1.global (n := n) (y := y) hy
  have g2 := fun y hy => p2.global (n := n) (y := y) hy
  have g3 := fun y hy => p3.global (n := n) (y := y) hy
  have t1 := fun y hy => p1.local_ (n := n) (y := y) hy
  have t2 := fun y hy => p2.local_ (n := n) (y := y) hy
  have t3 := fun y hy => p3.local_ (n := n) (y := y) hy
  rw [a1, a2] at g1
  rw [a2] at t1
  rw [b1, b2] at g2
  rw [b2] at t2
  rw [o1, o2] at g3
  rw [o2] at t3
  rw [a1, a2] at hl
  rw [b1, b2] at hr
  have hw1 : 1 ≤ w := (h3.tiling.dims 1 (show 1 < 2 by decide)).htile.1
  have hK1 : 1 ≤ K := (h2.tiling.dims 0 (show 0 < 2 by decide)).htile.1
  have off : ∀ s i j : Int, offset [s, 1] [i, j] = i * s + j := fun s i j => by simp [offset]
  have add : ∀ i j p q : Int, addPos [i, j] [p, q] = [i + p, j + q] := fun _ _ _ _ => rfl
  have ins : ∀ (A B : Int) (i j : Nat), i < A.toNat → j < B.toNat → InShape [A, B] [(i : Int), j] := fun A B i j hi hj =>
    ⟨⟨by omega, by omega⟩, ⟨by omega, by omega⟩, trivial⟩
  have vl : ∀ i k : Nat, i < rows.toNat → k < K.toNat → l.get (bl + (i * sl + k)) = gl.buf.get (offset gl.strides [i + r0, k]) := by
    intro i k hi hk
    have := hl [(i : Int), k] (ins _ _ _ _ hi hk)
    rwa [off, add, Int.add_zero] at this
  have vr : ∀ k j : Nat, k < K.toNat → j < w.toNat → r.get (br + (k * sr + j)) = gr.buf.get (offset gr.strides [(k : Int), j + c0]) := by
    intro k j hk hj
    have := hr [(k : Int), j] (ins _ _ _ _ hk hj)
    rwa [off, add, Int.add_zero] at this
  have hprod : ∀ (i j : Nat), i < rows.toNat → j < w.toNat → ∀ m, m ≤ K.toNat →
      matProd m (fun i k => l.get (bl + (i * sl + k))) (fun k j => r.get (br + (k * sr + j))) zl zr i j =
      matProd m (fun i k => gl.buf.get (offset gl.strides [i, k])) (fun k j => gr.buf.get (offset gr.strides [k, j])) zl zr (i + r0) (j + c0) := by
    intro i j hi hj m hm
    unfold matProd
    apply Finset.sum_congr rfl
    intro k hk
    rw [Finset.mem_range] at hk
    simp only
    rw [vl i k hi (by omega), vr k j (by omega) hj]
  have ww : ((w.toNat : Nat) : Int) = w := by omega
  obtain ⟨d', k1, k2, k3⟩ := matmul_laid rows.toNat w.toNat K.toNat sl sr zl zr l r d bl br bo (by omega)
    (fun i k hi hk => by
      have := h1.room.inb _ (t1 _ (ins _ _ _ _ hi hk))
      rwa [off, ← el] at this)
    (fun k j hk hj => by
      have := h2.room.inb _ (t2 _ (ins _ _ _ _ hk hj))
      rwa [off, ← er] at this)
    (fun i j hi hj => by
      have := h3.room.inb _ (t3 _ (ins _ _ _ _ hi hj))
      rwa [off, ← ed, ← ww] at this)
    (fun i k hi hk => by
      rw [vl i k hi hk]
      have := g1 _ (ins _ _ _ _ hi hk)
      rw [add, Int.add_zero] at this
      exact hdl _ _ this)
    (fun k j hk hj => by
      rw [vr k j hk hj]
      have := g2 _ (ins _ _ _ _ hk hj)
      rw [add, Int.add_zero] at this
      exact hdr _ _ this)
    (fun i j hi hj m hm => by
      rw [hprod i j hi hj m hm]
      have := g3 _ (ins _ _ _ _ hi hj)
      rw [add] at this
      exact hsum _ _ this m hm)
  refine ⟨d', ?_, k2, ?_⟩
  · show (if (1 : Int) = 1 ∧ (4 : Int) = 4 then (getLe 1 pb pm).bind fun zl => (getLe 1 (pb + 1) pm).bind fun zr => matMulIssue 1 4 zl zr l r
      (tileT ((tileIt [M, K] [h, K] [sl, 1]).at n).sizes [sl, 1] bl) (tileT ((tileIt [K, N] [K, w] [sr, 1]).at n).sizes [sr, 1] br)
      (tileT (out.at n).sizes [w, 1] bo) d else some (.notSupported, d)) = _
    rw [if_pos ⟨rfl, rfl⟩, hzl, Option.bind_some, hzr, Option.bind_some, a2, b2]
    unfold matMulIssue
    rw [if_pos ⟨rfl, rfl⟩]
    have e1 : (tileT [rows, K] [sl, 1] bl).gShape 0 = rows := by simp [tileT, Tensor.gShape]
    have e2 : (tileT [K, w] [sr, 1] br).gShape 1 = w := by simp [tileT, Tensor.gShape]
    have e3 : (tileT [rows, K] [sl, 1] bl).gShape 1 = K := by simp [tileT, Tensor.gShape]
    have e4 : (tileT [rows, K] [sl, 1] bl).gStride 0 = sl := by simp [tileT, Tensor.gStride]
    have e5 : (tileT [K, w] [sr, 1] br).gStride 0 = sr := by simp [tileT, Tensor.gStride]
    rw [e1, e2, e3, e4, e5]
    show (matMulLoops rows.toNat w.toNat K.toNat sl sr zl zr l r bl br bo d).map _ = _
    rw [k1]
    rfl
  · rw [o1, o2]
    intro y hy
    match y, hy with
    | [i, j], hy =>
      obtain ⟨⟨i1, i2⟩, ⟨j1, j2⟩, -⟩ := hy
      have := k3 i.toNat j.toNat (by omega) (by omega)
      rw [hprod i.toNat j.toNat (by omega) (by omega) _ (le_refl _), ww, show ((i.toNat : Nat) : Int) = i by omega,
        show ((j.toNat : Nat) : Int) = j by omega] at this
      rw [off]
      exact this

/-- C74 without a condition on the sums: matrices with up to 131071 columns cannot overflow. -/
theorem c74_no_overflow_partial (M K N h w : Int) (hw : w = N ∨ (h = M ∧ w ∣ N)) (hK : K < 131072) (sl sr bl br bo pb zl zr : Int) (gl gr : Glob)
    (gos : List Int) (ml mr mo gout pm : Buf) (h1 : SideOk [M, K] [h, K] [sl, 1] bl ml.size gl.strides gl.buf.size)
    (h2 : SideOk [K, N] [K, w] [sr, 1] br mr.size gr.strides gr.buf.size) (h3 : SideOk [M, N] [h, w] [w, 1] bo mo.size gos gout.size)
    (ginj : ∀ x y, InShape [M, N] x → InShape [M, N] y → offset gos x = offset gos y → x = y)
    (hzl : getLe 1 pb pm = some zl) (hzr : getLe 1 (pb + 1) pm = some zr)
    (hdl : ∀ i k, InShape [M, K] [i, k] → InRange 8 (gl.buf.get (offset gl.strides [i, k]) - zl))
    (hdr : ∀ k j, InShape [K, N] [k, j] → InRange 8 (gr.buf.get (offset gr.strides [k, j]) - zr)) :
    let out := tileIt [M, N] [h, w] [w, 1]
    ∃ s, MatMulHost.run (fun o => o.right.getPos) gl gr gos pm (totalCount out.cfg).toNat
        ⟨MatMulObj.new 1 4 (tileIt [M, K] [h, K] [sl, 1]) (tileIt [K, N] [K, w] [sr, 1]) out bl br bo pb, ml, mr, mo, gout, .ok⟩ = some s ∧ s.status = .ok ∧
      Result [M, N] gos (fun x => matProd K.toNat (fun i k => gl.buf.get (offset gl.strides [i, k])) (fun k j => gr.buf.get (offset gr.strides [k, j]))
        zl zr (x.getD 0 0) (x.getD 1 0)) gout s.gout :=
  c74_matmul_tiled_partial M K N h w hw sl sr bl br bo pb zl zr gl gr gos ml mr mo gout pm h1 h2 h3 ginj hzl hzr hdl hdr (fun i j hij =>
    matProd_range (by omega) (fun k hk => hdl _ _ ⟨hij.1, ⟨by omega, by omega⟩, trivial⟩)
      (fun k hk => hdr _ _ ⟨⟨by omega, by omega⟩, hij.2.1, trivial⟩))

/-- C74: the zero points that were encoded, copied to the local memory, are those that the kernel reads. -/
theorem c74_zero_points (zl zr enc : Buf) (h1 : 1 ≤ zl.size) (h2 : 1 ≤ zr.size) (r1 : InRange 8 (zl.get 0)) (r2 : InRange 8 (zr.get 0)) (hs : 2 ≤ enc.size) :
    ∃ enc', matMulEncode zl zr enc = some enc' ∧ enc'.size = enc.size ∧
      ∀ (pb : Int) (pm : Buf), 0 ≤ pb → pb + 2 ≤ pm.size →
        ∃ pm', copyBytes 2 enc' 0 pm pb = some pm' ∧ getLe 1 pb pm' = some (zl.get 0) ∧ getLe 1 (pb + 1) pm' = some (zr.get 0) := by
  have f : ∀ b : Buf, 1 ≤ b.size → InRange 8 (b.get 0) → Fits 1 1 b := fun b hb hr => ⟨by simpa using hb, fun i hi => by
    obtain rfl : i = 0 := by omega
    simpa using hr⟩
  obtain ⟨enc', k1, k2, -, k4⟩ := c71_clip_partial zl zr enc (f zl h1 r1) (f zr h2 r2) hs
  refine ⟨enc', k1, k2, fun pb pm h0 hp => ?_⟩
  obtain ⟨pm', q1, q2⟩ := k4 pb pm h0 hp
  refine ⟨pm', q1, ?_⟩
  unfold clipParams at q2
  cases e1 : getLe 1 pb pm' with
  | none => rw [e1] at q2; simp at q2
  | some a =>
    cases e2 : getLe 1 (pb + ((1 : Nat) : Int)) pm' with
    | none => rw [e1, e2] at q2; simp at q2
    | some b =>
      rw [e1, e2] at q2
      simp only [Option.bind_some, Option.map_some, Option.some.injEq, Prod.mk.injEq] at q2
      rw [q2.1, q2.2]
      exact ⟨rfl, rfl⟩

/-- C74, status: `Issue` reports success exactly for 8-bit inputs and 32-bit outputs; otherwise it changes nothing. -/
theorem c74_status (o : MatMulObj) (pm l r d d' : Buf) (st : Status) (h : o.issue pm l r d = some (st, d')) :
    (st = .ok ↔ o.esi = 1 ∧ o.eso = 4) ∧ (st ≠ .ok → st = .notSupported ∧ d' = d) := by
  unfold MatMulObj.issue at h
  split at h
  · rename_i c
    cases e1 : getLe 1 o.pb pm with
    | none => rw [e1] at h; simp at h
    | some zl =>
      cases e2 : getLe 1 (o.pb + 1) pm with
      | none => rw [e1, e2] at h; simp at h
      | some zr =>
        rw [e1, e2, Option.bind_some, Option.bind_some] at h
        unfold matMulIssue at h
        rw [if_pos c, Option.map_eq_some_iff] at h
        obtain ⟨x, -, hx⟩ := h
        simp only [Prod.mk.injEq] at hx
        exact ⟨by simp [← hx.1, c], fun hne => absurd hx.1.symm hne⟩
  · rename_i c
    simp only [Option.some.injEq, Prod.mk.injEq] at h
    obtain ⟨rfl, rfl⟩ := h
    exact ⟨by simp [c], fun _ => ⟨rfl, rfl⟩⟩

/-! ### Examples -/

/-- 3x2 times 2x4: the rows of the left matrix in tiles of two. -/
def exMtL : Glob := ⟨Buf.ofList [1, 2, 3, 4, 5, 6], [2, 1]⟩
def exMtR : Glob := ⟨Buf.ofList [1, 0, 2, 7, 0, 1, -3, 8], [4, 1]⟩

theorem exMtSideL : SideOk [3, 2] [2, 2] [3, 1] 1 6 exMtL.strides exMtL.buf.size :=
  ⟨tiling_of (by decide) (by decide), rfl, ⟨rfl, allIn (by decide), inj_of (by decide)⟩, allIn (by decide)⟩
theorem exMtSideR : SideOk [2, 4] [2, 4] [4, 1] 0 8 exMtR.strides exMtR.buf.size :=
  ⟨tiling_of (by decide) (by decide), rfl, ⟨rfl, allIn (by decide), inj_of (by decide)⟩, allIn (by decide)⟩
theorem exMtSideO : SideOk [3, 4] [2, 4] [4, 1] 0 8 [5, 1] 15 :=
  ⟨tiling_of (by decide) (by decide), rfl, ⟨rfl, allIn (by decide), inj_of (by decide)⟩, allIn (by decide)⟩

example : ∃ s, MatMulHost.run (fun o => o.right.getPos) exMtL exMtR [5, 1] (Buf.ofList [1, 255]) 2
      ⟨MatMulObj.new 1 4 (tileIt [3, 2] [2, 2] [3, 1]) (tileIt [2, 4] [2, 4] [4, 1]) (tileIt [3, 4] [2, 4] [4, 1]) 1 0 0 0,
        exZeros 6, exZeros 8, exZeros 8, exZeros 15, .ok⟩ = some s ∧ s.status = .ok ∧ s.gout.get 12 = 2 ∧ s.gout.get 14 = 0 := by
  obtain ⟨s, h1, h2, h3⟩ := c74_no_overflow_partial 3 2 4 2 4 (Or.inl rfl) (by decide) 3 4 1 0 0 0 1 (-1) exMtL exMtR [5, 1] (exZeros 6) (exZeros 8)
    (exZeros 8) (exZeros 15) (Buf.ofList [1, 255]) exMtSideL exMtSideR exMtSideO (inj_of (by decide)) (by decide) (by decide)
    (fun i k h => allIn (ns := [3, 2]) (P := fun x => InRange 8 (exMtL.buf.get (offset exMtL.strides x) - 1)) (by decide) _ h)
    (fun i k h => allIn (ns := [2, 4]) (P := fun x => InRange 8 (exMtR.buf.get (offset exMtR.strides x) - -1)) (by decide) _ h)
  refine ⟨s, h1, h2, (h3.elem [2, 2] (by decide)).trans (by decide), h3.frame 14 (allIn (P := fun x => offset [5, 1] x ≠ 14) (by decide))⟩

/-! ### Violations -/

/-- **Violation**: the kernel reports the position of the left tile for the right input.  With the rows tiled as above, a caller that uses the reported
position reads behind the right matrix in the second round (here nothing follows it).  The user test replaces the position by zero. -/
theorem c74_right_position_violated :
    (MatMulHost.run (fun o => o.offsets.2.1) exMtL exMtR [5, 1] (Buf.ofList [1, 255]) 2
      ⟨MatMulObj.new 1 4 (tileIt [3, 2] [2, 2] [3, 1]) (tileIt [2, 4] [2, 4] [4, 1]) (tileIt [3, 4] [2, 4] [4, 1]) 1 0 0 0,
        exZeros 6, exZeros 8, exZeros 8, exZeros 15, .ok⟩).isNone = true ∧
    ∃ n, ((MatMulObj.new 1 4 (tileIt [3, 2] [2, 2] [3, 1]) (tileIt [2, 4] [2, 4] [4, 1]) (tileIt [3, 4] [2, 4] [4, 1]) 1 0 0 0).at n).offsets.2.1 ≠
      ((tileIt [2, 4] [2, 4] [4, 1]).at n).getPos :=
  ⟨by decide +kernel, 1, by decide +kernel⟩

/-- **Violation**: 2x1 times 1x3 with the columns in tiles of two.  The second tile has one column; the kernel writes its two elements side by side
instead of into different rows of the local buffer, so the element (1, 2) of the output is not 9. -/
theorem c74_narrow_tile_violated :
    SideOk [2, 1] [2, 1] [1, 1] 0 2 [1, 1] 2 ∧ SideOk [1, 3] [1, 2] [2, 1] 0 2 [3, 1] 3 ∧ SideOk [2, 3] [2, 2] [2, 1] 0 4 [3, 1] 6 ∧
    (MatMulHost.run (fun o => o.right.getPos) ⟨Buf.ofList [2, 3], [1, 1]⟩ ⟨Buf.ofList [1, 2, 3], [3, 1]⟩ [3, 1] (Buf.ofList [0, 0]) 2
      ⟨MatMulObj.new 1 4 (tileIt [2, 1] [2, 1] [1, 1]) (tileIt [1, 3] [1, 2] [2, 1]) (tileIt [2, 3] [2, 2] [2, 1]) 0 0 0 0,
        exZeros 2, exZeros 2, exZeros 4, exZeros 6, .ok⟩).map (fun s => (s.status, s.gout.toList)) = some (.ok, [2, 4, 6, 3, 6, 3]) :=
  ⟨⟨tiling_of (by decide) (by decide), rfl, ⟨rfl, allIn (by decide), inj_of (by decide)⟩, allIn (by decide)⟩,
   ⟨tiling_of (by decide) (by decide), rfl, ⟨rfl, allIn (by decide), inj_of (by decide)⟩, allIn (by decide)⟩,
   ⟨tiling_of (by decide) (by decide), rfl, ⟨rfl, allIn (by decide), inj_of (by decide)⟩, allIn (by decide)⟩, by decide +kernel⟩

end Mli.Rt
