import Verif.Model.MatMulRuntime
import Verif.Lemmas.UnRuntime
import Verif.Props.MatMul

/-! # All rounds of `MatMul` -/

namespace Mli.Rt

open Mli Mli.Iter Mli.Spec

/-- The loops of the kernel, for tiles that are not checked. -/
theorem matmul_laid (M N K : Nat) (sl sr zl zr : Int) (left right dst : Buf) (bl br bo : Int) (hN : 1 ≤ N)
    (hl : ∀ i k : Nat, i < M → k < K → 0 ≤ bl + (i * sl + k) ∧ bl + (i * sl + k) < left.size)
    (hr : ∀ k j : Nat, k < K → j < N → 0 ≤ br + (k * sr + j) ∧ br + (k * sr + j) < right.size)
    (ho : ∀ i j : Nat, i < M → j < N → 0 ≤ bo + (i * N + j) ∧ bo + (i * N + j) < dst.size)
    (hdl : ∀ i k : Nat, i < M → k < K → InRange 8 (left.get (bl + (i * sl + k)) - zl))
    (hdr : ∀ k j : Nat, k < K → j < N → InRange 8 (right.get (br + (k * sr + j)) - zr))
    (hsum : ∀ i j : Nat, i < M → j < N → ∀ n, n ≤ K →
      InRange 32 (matProd n (fun i k => left.get (bl + (i * sl + k))) (fun k j => right.get (br + (k * sr + j))) zl zr i j)) :
    ∃ dst', matMulLoops M N K sl sr zl zr left right bl br bo dst = some dst' ∧ dst'.size = dst.size ∧
      ∀ i j : Nat, i < M → j < N → dst'.get (bo + (i * N + j)) =
        matProd K (fun i k => left.get (bl + (i * sl + k))) (fun k j => right.get (br + (k * sr + j))) zl zr i j := by
  let tout := tileT [(M : Int), N] [(N : Int), 1] bo
  have so' : tout.shape = [(M : Int), N] := rfl
  have ao : ∀ i j, tout.addr [i, j] = bo + (i * N + j) := by
    intro i j; simp [tout, tileT, Tensor.addr, Tensor.strides, offset]
  obtain ⟨dst', h1, h2⟩ := forPos_laid tout tout dst (show 2 ≤ 4 by decide)
    (by
      intro is hi
      rw [so'] at hi
      match is, hi with
      | [i, j], hi =>
        obtain ⟨⟨a1, a2⟩, ⟨b1, b2⟩, -⟩ := hi
        rw [ao]
        have := ho i.toNat j.toNat (by omega) (by omega)
        rwa [show ((i.toNat : Nat) : Int) = i by omega, show ((j.toNat : Nat) : Int) = j by omega] at this)
    (by
      intro is js hi hj e
      rw [so'] at hi hj
      match is, hi, js, hj with
      | [i, j], hi, [i', j'], hj =>
        obtain ⟨⟨a1, a2⟩, ⟨b1, b2⟩, -⟩ := hi
        obtain ⟨⟨a3, a4⟩, ⟨b3, b4⟩, -⟩ := hj
        rw [ao, ao] at e
        have hii : i = i' := by
          rcases lt_trichotomy i i' with h | h | h
          · nlinarith
          · exact h
          · nlinarith
        subst hii
        have : j = j' := by omega
        rw [this])
    rfl
    (fun is => matProd K (fun i k => left.get (bl + (i * sl + k))) (fun k j => right.get (br + (k * sr + j))) zl zr (is.getD 0 0) (is.getD 1 0))
    (fun i j _ _ d =>
      (forRange K (fun k acc =>
        (left.rd (bl + (i * sl + k))).bind fun x =>
        (right.rd (br + (k * sr + j))).bind fun y =>
        ckd 32 (acc + wrap 8 (x - zl) * wrap 8 (y - zr))) 0).bind fun v =>
      d.wr (bo + (i * N + j)) v)
    (fun q hq d' hd hfr => by
      have hq' : q.1 < M ∧ q.2.1 < N := by
        rw [Tensor.pts, mem_pts4] at hq
        have g0 : tout.gShape 0 = M := by simp [tout, tileT, Tensor.gShape]
        have g1 : tout.gShape 1 = N := by simp [tout, tileT, Tensor.gShape]
        rw [g0, g1] at hq
        omega
      rw [acc_sum K _ (fun k => (left.get (bl + (q.1 * sl + k)) - zl) * (right.get (br + (k * sr + q.2.1)) - zr)) ?_ ?_, Option.bind_some]
      · show _ = d'.wr (tout.addr [(q.1 : Int), q.2.1]) _
        rw [ao]
        rfl
      · intro k acc hk
        rw [Buf.rd_some (hl _ _ hq'.1 hk), Option.bind_some, Buf.rd_some (hr _ _ hk hq'.2), Option.bind_some,
          wrap_of_inRange (by omega) (hdl _ _ hq'.1 hk), wrap_of_inRange (by omega) (hdr _ _ hk hq'.2)]
      · exact hsum _ _ hq'.1 hq'.2)
  refine ⟨dst', ?_, h2.size, ?_⟩
  · unfold forPos at h1
    have g0 : tout.gShape 0 = M := by simp [tout, tileT, Tensor.gShape]
    have g1 : tout.gShape 1 = N := by simp [tout, tileT, Tensor.gShape]
    have g2 : tout.gShape 2 = 1 := by simp [tout, tileT, Tensor.gShape]
    have g3 : tout.gShape 3 = 1 := by simp [tout, tileT, Tensor.gShape]
    rw [g0, g1, g2, g3] at h1
    exact h1
  · intro i j hi hj
    have := h2.elem [(i : Int), j] (by rw [so']; exact ⟨⟨by omega, by omega⟩, ⟨by omega, by omega⟩, trivial⟩)
    rw [ao] at this
    exact this

/-- Current tile of a matrix, along each dimension. -/
theorem mat_at {A B a b : Int} (h : TilingOk [A, B] [a, b] (List.range 2) 0) (loc : List Int) (n : Nat) :
    let cA := (tileDim 0 A a 0).count
    let cB := (tileDim 0 B b 0).count
    let i : Int := n % cA
    let j : Int := n / cA % cB
    ((tileIt [A, B] [a, b] loc).at n).getPos = [posOf (tileDim 0 A a 0) i, posOf (tileDim 0 B b 0) j] ∧
    ((tileIt [A, B] [a, b] loc).at n).sizes =
      [tileSize A (tileDim 0 A a 0) { pos := posOf (tileDim 0 A a 0) i, idx := i }, tileSize B (tileDim 0 B b 0) { pos := posOf (tileDim 0 B b 0) j, idx := j }] := by
  intro cA cB i j
  have hp := tileSeq_range (shape := [A, B]) h rfl loc
  change TileSeq _ _ _ (fun n => ((tileIt [A, B] [a, b] loc).at n).getPos) (fun n => ((tileIt [A, B] [a, b] loc).at n).sizes) at hp
  have h0 := tile_dim (shape := [A, B]) (tiles := [a, b]) h loc n 0 (show 0 < 2 by decide)
  have h1 := tile_dim (shape := [A, B]) (tiles := [a, b]) h loc n 1 (show 1 < 2 by decide)
  have hc : tileCounts [A, B] [a, b] = [cA, cB] := rfl
  rw [hc] at h0 h1
  simp only [tileIx, List.getD_cons_zero, List.getD_cons_succ] at h0 h1
  refine ⟨ext_getD (by rw [hp.lenP]; rfl) fun d hd => ?_, ext_getD (by rw [hp.lenS]; rfl) fun d hd => ?_⟩
  · rw [hp.lenP] at hd
    match d, hd with
    | 0, _ => exact h0.1
    | 1, _ => exact h1.1
  · rw [hp.lenS] at hd
    match d, hd with
    | 0, _ => exact h0.2
    | 1, _ => exact h1.2

/-- The width of a tile if the tiles have one width. -/
theorem full_tile {n w : Int} (h : TileOk n w 0) (hd : w ∣ n) {j : Int} (hj : 0 ≤ j ∧ j < (tileDim 0 n w 0).count) :
    tileSize n (tileDim 0 n w 0) { pos := posOf (tileDim 0 n w 0) j, idx := j } = w := by
  obtain ⟨q, r, e1, e2, e3, e4, -, e6, e7, e8, e9, e10, e11, e12⟩ := tileDim_facts 0 h
  have := h.htile
  have hr : r = w := by
    have : w ∣ r := by
      have := Int.dvd_sub hd (Dvd.intro q rfl : w ∣ w * q)
      rwa [show n - w * q = r by omega] at this
    exact le_antisymm e3 (Int.le_of_dvd (by omega) this)
  have hs := tileDim_spec 0 h j hj
  simp only at hs
  obtain ⟨s1, s2, s3, s4, -⟩ := hs
  have hle : tileSize n (tileDim 0 n w 0) { pos := posOf (tileDim 0 n w 0) j, idx := j } ≤ w := tileSize_le 0 h _
  by_cases hl : j = q
  · unfold tileSize
    rw [if_pos (show j = _ by omega), e12, hr]
  · -- both the first and the last element of the tile
    have hjq : j + 1 ≤ q := by omega
    have hx := (s4 (w * j) (by nlinarith) (by nlinarith)).mpr (by rw [Int.add_zero, Int.mul_ediv_cancel_left _ (by omega)])
    have hy := (s4 (w * j + (w - 1)) (by nlinarith) (by nlinarith)).mpr (by
      rw [Int.add_zero, Int.add_comm, Int.add_mul_ediv_left _ _ (by omega), Int.ediv_eq_zero_of_lt (by omega) (by omega), Int.zero_add])
    omega

/-- The object in round `n`. -/
def MatMulObj.at (o : MatMulObj) (n : Nat) : MatMulObj :=
  { o with left := o.left.at n, right := o.right.at n, out := o.out.at n
           tl := tileT (o.left.at n).sizes o.left.strides o.tl.base
           tr := tileT (o.right.at n).sizes o.right.strides o.tr.base
           tout := tileT (o.out.at n).sizes o.out.strides o.tout.base }

theorem matmul_run {ls lt ll rs rt lr os ot lo gos : List Int} {bl br bo : Int} {gl gr : Glob} {ml mr mo gout : Buf}
    (h1 : SideOk ls lt ll bl ml.size gl.strides gl.buf.size) (h2 : SideOk rs rt lr br mr.size gr.strides gr.buf.size)
    (h3 : SideOk os ot lo bo mo.size gos gout.size)
    (ginj : ∀ x y, InShape os x → InShape os y → offset gos x = offset gos y → x = y) (esi eso pb : Int) (pm : Buf) (val : List Int → Int)
    (roff : MatMulObj → List Int)
    (hroff : ∀ n, roff ((MatMulObj.new esi eso (tileIt ls lt ll) (tileIt rs rt lr) (tileIt os ot lo) bl br bo pb).at n) = ((tileIt rs rt lr).at n).getPos)
    (hissue : ∀ (n : Nat) (l r d : Buf), l.size = ml.size → r.size = mr.size → d.size = mo.size →
      (∀ y, InShape ((tileIt ls lt ll).at n).sizes y →
        l.get (bl + offset ll y) = gl.buf.get (offset gl.strides (addPos y ((tileIt ls lt ll).at n).getPos))) →
      (∀ y, InShape ((tileIt rs rt lr).at n).sizes y →
        r.get (br + offset lr y) = gr.buf.get (offset gr.strides (addPos y ((tileIt rs rt lr).at n).getPos))) →
      ∃ d', ((MatMulObj.new esi eso (tileIt ls lt ll) (tileIt rs rt lr) (tileIt os ot lo) bl br bo pb).at n).issue pm l r d = some (.ok, d') ∧ d'.size = d.size ∧
        ∀ y, InShape ((tileIt os ot lo).at n).sizes y → d'.get (bo + offset lo y) = val (addPos y ((tileIt os ot lo).at n).getPos)) :
    ∃ s, MatMulHost.run roff gl gr gos pm (totalCount (tileIt os ot lo).cfg).toNat
        ⟨MatMulObj.new esi eso (tileIt ls lt ll) (tileIt rs rt lr) (tileIt os ot lo) bl br bo pb, ml, mr, mo, gout, .ok⟩ = some s ∧ s.status = .ok ∧
      Result os gos val gout s.gout := by
  have p1 := tileSeq_range h1.tiling h1.rank ll
  have p2 := tileSeq_range h2.tiling h2.rank lr
  have p3 := tileSeq_range h3.tiling h3.rank lo
  change TileSeq _ _ _ (fun n => ((tileIt ls lt ll).at n).getPos) (fun n => ((tileIt ls lt ll).at n).sizes) at p1
  change TileSeq _ _ _ (fun n => ((tileIt rs rt lr).at n).getPos) (fun n => ((tileIt rs rt lr).at n).sizes) at p2
  change TileSeq _ _ (totalCount (tileIt os ot lo).cfg).toNat (fun n => ((tileIt os ot lo).at n).getPos) (fun n => ((tileIt os ot lo).at n).sizes) at p3
  have s1 : (tileIt ls lt ll).strides = ll := rfl
  have s2 : (tileIt rs rt lr).strides = lr := rfl
  have s3 : (tileIt os ot lo).strides = lo := rfl
  have z1 : (tileIt ls lt ll).at 0 = tileIt ls lt ll := rfl
  have z2 : (tileIt rs rt lr).at 0 = tileIt rs rt lr := rfl
  have z3 : (tileIt os ot lo).at 0 = tileIt os ot lo := rfl
  generalize tileIt ls lt ll = L at *
  generalize tileIt rs rt lr = R at *
  generalize tileIt os ot lo = O at *
  have q1 : ∀ n, (L.at n).sizes.length = ll.length := fun n => by rw [p1.lenS n, h1.room.len, h1.rank]
  have q2 : ∀ n, (R.at n).sizes.length = lr.length := fun n => by rw [p2.lenS n, h2.room.len, h2.rank]
  have q3 : ∀ n, (O.at n).sizes.length = lo.length := fun n => by rw [p3.lenS n, h3.room.len, h3.rank]
  let o := MatMulObj.new esi eso L R O bl br bo pb
  have h0 : o = o.at 0 := by
    simp only [o, MatMulObj.new, MatMulObj.at, z1, z2, z3, tileT]
  let J : Nat → MatMulHost → Prop := fun n s => s.status = .ok ∧ s.obj = o.at n ∧ s.ll.size = ml.size ∧ s.lr.size = mr.size ∧ s.lout.size = mo.size ∧
    s.gout.size = gout.size
  obtain ⟨s', k1, k2, k3⟩ := tile_loop p3 ginj val (fun s => MatMulHost.round roff gl gr gos pm s) (fun s => s.gout) J ⟨o, ml, mr, mo, gout, .ok⟩
    ⟨rfl, h0, rfl, rfl, rfl, rfl⟩ (by
    rintro n ⟨obj, l0, r0, d0, g0, st⟩ hn ⟨j1, j2, j3, j4, j5, j6⟩
    simp only at j1 j2 j3 j4 j5 j6
    have e1 : ∀ y, InShape (L.at n).sizes y → addPos y (zeros (L.at n).sizes) = y := fun y hy => addPos_zeros (inShape_length _ _ hy).symm
    have e2 : ∀ y, InShape (R.at n).sizes y → addPos y (zeros (R.at n).sizes) = y := fun y hy => addPos_zeros (inShape_length _ _ hy).symm
    have e3 : ∀ y, InShape (O.at n).sizes y → addPos y (zeros (O.at n).sizes) = y := fun y hy => addPos_zeros (inShape_length _ _ hy).symm
    obtain ⟨l1, f1, f2, f3, -⟩ := copyBox_ok (size := (L.at n).sizes) (src := gl.buf) (sb := 0) (ss := gl.strides) (sp := (L.at n).getPos)
      (db := bl) (ds := ll) (dp := zeros (L.at n).sizes) (dst := l0)
      (fun y hy => by rw [Int.zero_add]; exact h1.glob _ (p1.global hy))
      (fun y hy => by rw [e1 y hy, j3]; exact h1.room.inb y (p1.local_ hy))
      (fun y z hy hz e => by
        rw [e1 y hy, e1 z hz] at e
        exact h1.room.inj y z (p1.local_ hy) (p1.local_ hz) (by omega))
    obtain ⟨r1, t1, t2, t3, -⟩ := copyBox_ok (size := (R.at n).sizes) (src := gr.buf) (sb := 0) (ss := gr.strides) (sp := (R.at n).getPos)
      (db := br) (ds := lr) (dp := zeros (R.at n).sizes) (dst := r0)
      (fun y hy => by rw [Int.zero_add]; exact h2.glob _ (p2.global hy))
      (fun y hy => by rw [e2 y hy, j4]; exact h2.room.inb y (p2.local_ hy))
      (fun y z hy hz e => by
        rw [e2 y hy, e2 z hz] at e
        exact h2.room.inj y z (p2.local_ hy) (p2.local_ hz) (by omega))
    obtain ⟨d1, i4, i5, i6⟩ := hissue n l1 r1 d0 (by omega) (by omega) j5
      (fun y hy => by
        have := f3 y hy
        rw [e1 y hy, Int.zero_add] at this
        exact this)
      (fun y hy => by
        have := t3 y hy
        rw [e2 y hy, Int.zero_add] at this
        exact this)
    obtain ⟨g', c1, c2, c3, c4⟩ := copyBox_ok (size := (O.at n).sizes) (src := d1) (sb := bo) (ss := lo) (sp := zeros (O.at n).sizes)
      (db := 0) (ds := gos) (dp := (O.at n).getPos) (dst := g0)
      (fun y hy => by rw [e3 y hy, i5, j5]; exact h3.room.inb y (p3.local_ hy))
      (fun y hy => by rw [Int.zero_add, j6]; exact h3.glob _ (p3.global hy))
      (fun y z hy hz e => by
        rw [Int.zero_add, Int.zero_add] at e
        exact addPos_inj (by rw [p3.len hy, p3.lenP n]) (by rw [p3.len hz, p3.lenP n]) (ginj _ _ (p3.global hy) (p3.global hz) e))
    simp only [Int.zero_add] at c3 c4
    refine ⟨⟨(o.at n).update, l1, r1, d1, g', .ok⟩, ?_, ⟨rfl, ?_, by simp only; omega, by simp only; omega, by simp only; omega, by simp only; omega⟩, c2, ?_, c4⟩
    · unfold MatMulHost.round
      simp only
      rw [j2, j1, hroff n]
      show (copyBox (L.at n).sizes gl.buf 0 gl.strides (L.at n).getPos bl L.strides (zeros (L.at n).sizes) l0).bind _ = _
      rw [s1, f1, Option.bind_some]
      show (copyBox (R.at n).sizes gr.buf 0 gr.strides (R.at n).getPos br R.strides (zeros (R.at n).sizes) r0).bind _ = _
      rw [s2, t1, Option.bind_some, i4, Option.bind_some]
      show (copyBox (O.at n).sizes d1 bo O.strides (zeros (O.at n).sizes) 0 gos (O.at n).getPos g0).map _ = _
      rw [s3, c1]
      rfl
    · show (o.at n).update = o.at (n + 1)
      unfold MatMulObj.update MatMulObj.at
      simp only [TIt.at_next]
      simp only [o, MatMulObj.new, s1, s2, s3]
      rw [tileT_setShape (q1 n) (q1 (n + 1)), tileT_setShape (q2 n) (q2 (n + 1)), tileT_setShape (q3 n) (q3 (n + 1))]
    · intro y hy
      rw [c3 y hy, e3 y hy]
      exact i6 y hy)
  exact ⟨s', k1, k2.1, k3⟩

end Mli.Rt
