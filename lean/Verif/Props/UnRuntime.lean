import Verif.Lemmas.UnRuntime
import Verif.Props.MapRuntime

/-! # The run-time kernels REDUCE and PERMUTE tile by tile (C73) -/

namespace Mli.Rt

open Mli Mli.Iter Mli.Spec

theorem addPos_set {y p : List Int} {a : Nat} (hl : y.length = p.length) (ha : a < y.length) (hp : p.getD a 0 = 0) (i : Int) :
    addPos (y.set a i) p = (addPos y p).set a i := by
  have l : (addPos y p).length = y.length := by simp [addPos, hl]
  apply ext_getD (by simp [addPos])
  intro d hd
  have hd' : d < y.length := by simp [addPos] at hd; omega
  rw [addPos_coord (by simpa using hl) (by simpa using hd'), getD_set ha, getD_set (by omega)]
  split
  · next h => rw [h, hp]; omega
  · rw [addPos_coord hl hd']

/-- One round of a reduction; `sz` is the shape in the descriptor of the input tile. -/
theorem reduce_round {init : Buf → Int → Option Int} {step : Int → Int → Int} {v0 : (Nat → Int) → Int} {ishape itiles : List Int} {a : Nat}
    (hr : ishape.length ≤ 4) (ha : a < ishape.length) (hta : itiles.getD a 0 = ishape.getD a 0) {li lo : List Int} {bi bo : Int} {gin : Glob}
    {lin lout gout : Buf} {gos : List Int} (h1 : SideOk ishape itiles li bi lin.size gin.strides gin.buf.size)
    (h2 : SideOk (ishape.set a 1) (itiles.set a 1) lo bo lout.size gos gout.size) (n : Nat) (sz : List Int)
    (hsz : sz = ((tileIt ishape itiles li).at n).sizes ∨ (sz = ishape ∧ Room ishape li bi lin.size ∧ Room (ishape.set a 1) lo bo lout.size))
    (hinit : ∀ (l : Buf) b (f : Nat → Int), 0 ≤ b ∧ b < l.size → l.get b = f 0 → init l b = some (v0 f)) (l d : Buf) (hl : l.size = lin.size)
    (hv0 : ∀ f g : Nat → Int, f 0 = g 0 → v0 f = v0 g) (hd : d.size = lout.size)
    (hx : ∀ y, InShape ((tileIt ishape itiles li).at n).sizes y →
      l.get (bi + offset li y) = gin.buf.get (offset gin.strides (addPos y ((tileIt ishape itiles li).at n).getPos))) :
    ∃ d', reduceLoops (init l) step a l (tileT sz li bi) (tileT (sz.set a 1) lo bo) d = some d' ∧ d'.size = d.size ∧
      ∀ y, InShape ((tileIt (ishape.set a 1) (itiles.set a 1) lo).at n).sizes y → d'.get (bo + offset lo y) =
        let x := addPos y ((tileIt (ishape.set a 1) (itiles.set a 1) lo).at n).getPos
        (List.range (ishape.getD a 0).toNat).foldl (fun v (i : Nat) => step v (gin.buf.get (offset gin.strides (x.set a i))))
          (v0 fun i => gin.buf.get (offset gin.strides (x.set a i))) := by
  obtain ⟨c1, c2, c3, c4⟩ := reduce_at ha h1.tiling h1.rank hta h2.tiling li lo n
  have hp := tileSeq_range h1.tiling h1.rank li
  change TileSeq _ _ _ (fun n => ((tileIt ishape itiles li).at n).getPos) (fun n => ((tileIt ishape itiles li).at n).sizes) at hp
  have ls := hp.lenS n
  have lp := hp.lenP n
  have hq := tileSeq_range h2.tiling h2.rank lo
  change TileSeq _ _ _ (fun n => ((tileIt (ishape.set a 1) (itiles.set a 1) lo).at n).getPos)
    (fun n => ((tileIt (ishape.set a 1) (itiles.set a 1) lo).at n).sizes) at hq
  have hpos0 := hp.pos n
  have l1 := h1.room.len
  have l2 := h2.room.len
  have r1 := h1.rank
  rw [List.length_set] at l2
  -- the descriptor
  have hin : ∀ y, InShape sz y → 0 ≤ bi + offset li y ∧ bi + offset li y < l.size := by
    intro y hy
    rw [hl]
    rcases hsz with rfl | ⟨rfl, hR, -⟩
    · exact h1.room.inb y (hp.local_ hy)
    · exact hR.inb y hy
  have hsz1 : sz.length = ishape.length := by
    rcases hsz with rfl | ⟨rfl, -⟩
    · exact ls
    · rfl
  have hsza : sz.getD a 0 = ishape.getD a 0 := by
    rcases hsz with rfl | ⟨rfl, -⟩
    · exact c3
    · rfl
  have hishape : ∀ k ∈ ishape, 1 ≤ k := by
    intro k hk
    obtain ⟨i, hi, rfl⟩ := List.getElem_of_mem hk
    have := (h1.tiling.dims i (by simpa using hi)).htile
    have e : (List.range ishape.length).getD i 0 = i := by rw [List.getD_eq_getElem?_getD, List.getElem?_range hi]; rfl
    rw [e] at this
    have e' : ishape.getD i 0 = ishape[i] := by rw [List.getD_eq_getElem?_getD, List.getElem?_eq_getElem hi]; rfl
    omega
  have hszp : ∀ k ∈ sz, 1 ≤ k := by
    rcases hsz with rfl | ⟨rfl, -⟩
    · exact hpos0
    · exact hishape
  have hout : ∀ y, InShape (sz.set a 1) y → 0 ≤ bo + offset lo y ∧ bo + offset lo y < d.size := by
    intro y hy
    rw [hd]
    rcases hsz with rfl | ⟨rfl, -, hR⟩
    · rw [← c1] at hy
      exact h2.room.inb y (hq.local_ hy)
    · exact hR.inb y hy
  have hinj : ∀ y z, InShape (sz.set a 1) y → InShape (sz.set a 1) z → offset lo y = offset lo z → y = z := by
    intro y z hy hz
    rcases hsz with rfl | ⟨rfl, -, hR⟩
    · rw [← c1] at hy hz
      exact h2.room.inj y z (hq.local_ hy) (hq.local_ hz)
    · exact hR.inj y z hy hz
  have hge : 1 ≤ ishape.getD a 0 := by
    apply hishape
    rw [List.getD_eq_getElem?_getD, List.getElem?_eq_getElem ha]
    exact List.getElem_mem ha
  obtain ⟨d', k1, k2, k3⟩ := reduce_tile (init := init l) (step := step) (sz := sz) (li := li) (lo := lo) (bi := bi) (bo := bo) (src := l) (dst := d)
    (by omega) (show a < _ by omega) hszp (by omega) (by omega) hin hout hinj v0
    (fun y hy => hinit l _ _ (hin _ (inShape_set (by omega) (le_refl _) (by omega) hy)) rfl)
  refine ⟨d', k1, k2, fun y hy => ?_⟩
  have hy' : InShape (((tileIt ishape itiles li).at n).sizes.set a 1) y := by rw [← c1]; exact hy
  have hys : InShape (sz.set a 1) y := by
    rcases hsz with rfl | ⟨rfl, -⟩
    · exact hy'
    · rw [c1] at hy
      refine inShape_mono (by simp only [List.length_set]; omega) (fun d hd => ?_) hy
      rw [List.length_set] at hd
      rw [getD_set (by omega), getD_set (by omega)]
      split
      · exact le_refl _
      · have := hp.box n d hd
        omega
  have hyl : y.length = ishape.length := by
    have := inShape_length _ _ hys
    rw [List.length_set] at this
    omega
  rw [k3 y hys, hsza]
  have hget : ∀ i : Nat, (i : Int) < ishape.getD a 0 → l.get (bi + offset li (y.set a i)) =
      gin.buf.get (offset gin.strides ((addPos y ((tileIt (ishape.set a 1) (itiles.set a 1) lo).at n).getPos).set a i)) := by
    intro i hi
    rw [hx _ (inShape_set (by omega) (by omega) (by rw [c3]; exact hi) hy'), c2, addPos_set (by omega) (by omega) c4]
  simp only
  rw [hv0 (fun i => l.get (bi + offset li (y.set a i)))
    (fun i => gin.buf.get (offset gin.strides ((addPos y ((tileIt (ishape.set a 1) (itiles.set a 1) lo).at n).getPos).set a i))) (hget 0 (by omega))]
  apply List.foldl_ext
  intro v i hi
  rw [List.mem_range] at hi
  rw [hget i (by omega)]

/-- C73 (reduce-sum): with any tiling of the other dimensions, the caller's loop puts the sum along dimension `a` of the whole input at every position of
the output in global memory, if that sum is a value of the element type, and changes nothing else.  All calls report success. -/
theorem c73_reduce_sum_tiled (es : Nat) (he : es = 1 ∨ es = 2 ∨ es = 4) (ishape itiles : List Int) (a : Nat) (hr : ishape.length ≤ 4)
    (ha : a < ishape.length) (hta : itiles.getD a 0 = ishape.getD a 0) (li lo : List Int) (bi bo : Int) (gin : Glob) (gos : List Int) (lin lout gout : Buf)
    (h1 : SideOk ishape itiles li bi lin.size gin.strides gin.buf.size) (h2 : SideOk (ishape.set a 1) (itiles.set a 1) lo bo lout.size gos gout.size)
    (ginj : ∀ x y, InShape (ishape.set a 1) x → InShape (ishape.set a 1) y → offset gos x = offset gos y → x = y)
    (hov : ∀ x, InShape (ishape.set a 1) x →
      InRange (8 * es) (∑ i ∈ Finset.range (ishape.getD a 0).toNat, gin.buf.get (offset gin.strides (x.set a i)))) :
    let inp := tileIt ishape itiles li
    let out := tileIt (ishape.set a 1) (itiles.set a 1) lo
    ∃ s, UnHost.run gin gos (totalCount out.cfg).toNat ⟨UnObj.new (.sum a) es inp out bi bo, lin, lout, gout, .ok⟩ = some s ∧ s.status = .ok ∧
      Result (ishape.set a 1) gos (fun x => ∑ i ∈ Finset.range (ishape.getD a 0).toNat, gin.buf.get (offset gin.strides (x.set a i))) gout s.gout := by
  intro inp out
  have hge : 1 ≤ ishape.getD a 0 := by
    have := (h1.tiling.dims a (by simpa using ha)).htile
    have e : (List.range ishape.length).getD a 0 = a := by rw [List.getD_eq_getElem?_getD, List.getElem?_range ha]; rfl
    rw [e] at this
    omega
  refine un_run h1 h2 ginj (.sum a) es _ ?_
  intro n l d hl hd hx
  obtain ⟨c1, c2, c3, c4⟩ := reduce_at ha h1.tiling h1.rank hta h2.tiling li lo n
  obtain ⟨d', k1, k2, k3⟩ := reduce_round (init := fun _ _ => some 0) (step := fun v x => wrap (8 * es) (v + x)) (v0 := fun _ => 0) hr ha hta h1 h2 n _
    (Or.inl rfl) (fun _ _ _ _ _ => rfl) l d hl (fun _ _ _ => rfl) hd hx
  refine ⟨d', ?_, k2, fun y hy => ?_⟩
  · have e1 : (if n = 0 then inp.sizes else (inp.at n).sizes) = (inp.at n).sizes := by
      split
      · next h => subst h; rfl
      · rfl
    have e2 : (if n = 0 then out.sizes else (out.at n).sizes) = (inp.at n).sizes.set a 1 := by
      rw [← c1]
      split
      · next h => subst h; rfl
      · rfl
    show reduceSumIssue es a l (tileT (if n = 0 then inp.sizes else (inp.at n).sizes) li bi) (tileT (if n = 0 then out.sizes else (out.at n).sizes) lo bo) d = _
    rw [e1, e2]
    unfold reduceSumIssue
    rcases he with rfl | rfl | rfl
    · rw [if_neg (by decide), if_neg (by decide), if_pos (by decide)]; exact congrArg _ k1
    · rw [if_neg (by decide), if_pos (by decide)]; exact congrArg _ k1
    · rw [if_pos (by decide)]; exact congrArg _ k1
  · have hq := tileSeq_range h2.tiling h2.rank lo
    rw [k3 y hy]
    have hg : InShape (ishape.set a 1) (addPos y ((tileIt (ishape.set a 1) (itiles.set a 1) lo).at n).getPos) := hq.global hy
    rcases foldl_sum (8 * es) (fun i => gin.buf.get (offset gin.strides
        ((addPos y ((tileIt (ishape.set a 1) (itiles.set a 1) lo).at n).getPos).set a i))) (ishape.getD a 0).toNat with h | h
    · simp only at h ⊢
      rw [h, wrap_of_inRange (by omega) (hov _ hg)]
    · omega

/-- C73 (reduce-max): the same for the maximum.  Missing: the descriptors of the first tile have the shape of the whole tensors
(`c73_reduce_max_first_violated`), so the local buffers must have room for them. -/
theorem c73_reduce_max_tiled_partial (es : Nat) (he : es = 1 ∨ es = 2 ∨ es = 4) (ishape itiles : List Int) (a : Nat) (hr : ishape.length ≤ 4)
    (ha : a < ishape.length) (hta : itiles.getD a 0 = ishape.getD a 0) (li lo : List Int) (bi bo : Int) (gin : Glob) (gos : List Int) (lin lout gout : Buf)
    (h1 : SideOk ishape itiles li bi lin.size gin.strides gin.buf.size) (h2 : SideOk (ishape.set a 1) (itiles.set a 1) lo bo lout.size gos gout.size)
    (ginj : ∀ x y, InShape (ishape.set a 1) x → InShape (ishape.set a 1) y → offset gos x = offset gos y → x = y)
    (hR : Room ishape li bi lin.size) (hR' : Room (ishape.set a 1) lo bo lout.size) :
    let inp := tileIt ishape itiles li
    let out := tileIt (ishape.set a 1) (itiles.set a 1) lo
    ∃ s, ∃ val : List Int → Int, UnHost.run gin gos (totalCount out.cfg).toNat ⟨UnObj.new (.max a) es inp out bi bo, lin, lout, gout, .ok⟩ = some s ∧
      s.status = .ok ∧ Result (ishape.set a 1) gos val gout s.gout ∧
      ∀ x, InShape (ishape.set a 1) x → IsMax (ishape.getD a 0).toNat (fun i => gin.buf.get (offset gin.strides (x.set a i))) (val x) := by
  intro inp out
  have hge : 1 ≤ ishape.getD a 0 := by
    have := (h1.tiling.dims a (by simpa using ha)).htile
    have e : (List.range ishape.length).getD a 0 = a := by rw [List.getD_eq_getElem?_getD, List.getElem?_range ha]; rfl
    rw [e] at this
    omega
  obtain ⟨s, q1, q2, q3⟩ := un_run h1 h2 ginj (.max a) es (fun x => (List.range (ishape.getD a 0).toNat).foldl
      (fun v (i : Nat) => maxFx v (gin.buf.get (offset gin.strides (x.set a i)))) (gin.buf.get (offset gin.strides (x.set a ((0 : Nat) : Int))))) (by
    intro n l d hl hd hx
    obtain ⟨c1, c2, c3, c4⟩ := reduce_at ha h1.tiling h1.rank hta h2.tiling li lo n
    obtain ⟨d', k1, k2, k3⟩ := reduce_round (init := fun l b => l.rd b) (step := fun v x => maxFx v x) (v0 := fun f => f 0) hr ha hta h1 h2 n
      (if n = 0 then ishape else (inp.at n).sizes) (by
        split
        · exact Or.inr ⟨rfl, hR, hR'⟩
        · exact Or.inl rfl) (fun l b f hb hf => by rw [Buf.rd_some hb, hf]) l d hl (fun _ _ h => h) hd hx
    refine ⟨d', ?_, k2, k3⟩
    have e2 : (if n = 0 then ishape.set a 1 else (out.at n).sizes) = (if n = 0 then ishape else (inp.at n).sizes).set a 1 := by
      split
      · rfl
      · exact c1
    show reduceMaxIssue es a l (tileT (if n = 0 then ishape else (inp.at n).sizes) li bi) (tileT (if n = 0 then ishape.set a 1 else (out.at n).sizes) lo bo) d = _
    rw [e2]
    unfold reduceMaxIssue krnReduceMax
    rw [if_pos (by omega)]
    exact congrArg _ k1)
  exact ⟨s, _, q1, q2, q3, fun x hx => foldl_max _ _ (by omega)⟩

/-- C73 (permute): if the permutation keeps the order of the dimensions that have more than one tile, the caller's loop moves every element of the input to
its place in the output and changes nothing else.  All calls report success.  Missing: other orders (`c73_permute_order_violated`) and elements of 16 bits
(`c73_permute_16_violated`). -/
theorem c73_permute_tiled_partial (es : Nat) (he : es = 1 ∨ es = 4) (perm : PermCfg) (ishape itiles oshape otiles : List Int) (hr : ishape.length ≤ 4)
    (hl : oshape.length = ishape.length) (hp : IsPerm ishape.length perm)
    (hsh : ∀ k, k < ishape.length → oshape.getD k 0 = ishape.getD (perm.getD k 0) 0)
    (hti : ∀ k, k < ishape.length → otiles.getD k 0 = itiles.getD (perm.getD k 0) 0)
    (hord : ∀ k l, k < l → l < ishape.length → otiles.getD k 0 < oshape.getD k 0 → otiles.getD l 0 < oshape.getD l 0 → perm.getD k 0 < perm.getD l 0)
    (li lo : List Int) (bi bo : Int) (gin : Glob) (gos : List Int) (lin lout gout : Buf)
    (h1 : SideOk ishape itiles li bi lin.size gin.strides gin.buf.size) (h2 : SideOk oshape otiles lo bo lout.size gos gout.size)
    (ginj : ∀ x y, InShape oshape x → InShape oshape y → offset gos x = offset gos y → x = y) :
    let inp := tileIt ishape itiles li
    let out := tileIt oshape otiles lo
    ∃ s, ∃ val : List Int → Int, UnHost.run gin gos (totalCount out.cfg).toNat ⟨UnObj.new (.permute perm) es inp out bi bo, lin, lout, gout, .ok⟩ = some s ∧
      s.status = .ok ∧ Result oshape gos val gout s.gout ∧
      ∀ x y, InShape ishape x → InShape oshape y → (∀ k, k < ishape.length → y.getD k 0 = x.getD (perm.getD k 0) 0) →
        val y = gin.buf.get (offset gin.strides x) := by
  intro inp out
  classical
  let src : List Int → List Int := fun y =>
    if h : ∃ x, InShape ishape x ∧ ∀ k, k < ishape.length → y.getD k 0 = x.getD (perm.getD k 0) 0 then Classical.choose h else []
  have hsrc : ∀ x y, InShape ishape x → (∀ k, k < ishape.length → y.getD k 0 = x.getD (perm.getD k 0) 0) → src y = x := by
    intro x y hx hy
    have hex : ∃ x, InShape ishape x ∧ ∀ k, k < ishape.length → y.getD k 0 = x.getD (perm.getD k 0) 0 := ⟨x, hx, hy⟩
    have e : src y = Classical.choose hex := dif_pos hex
    obtain ⟨g1, g2⟩ := Classical.choose_spec hex
    rw [e]
    exact perm_unique hp (inShape_length _ _ g1).symm (inShape_length _ _ hx).symm g2 hy
  have hp1 := tileSeq_range h1.tiling h1.rank li
  change TileSeq _ _ _ (fun n => (inp.at n).getPos) (fun n => (inp.at n).sizes) at hp1
  have hp2 := tileSeq_range h2.tiling h2.rank lo
  change TileSeq _ _ _ (fun n => (out.at n).getPos) (fun n => (out.at n).sizes) at hp2
  obtain ⟨s, q1, q2, q3⟩ := un_run h1 h2 ginj (.permute perm) es (fun y => gin.buf.get (offset gin.strides (src y))) (by
    intro n l d hl' hd hx
    have hat := fun k hk => permute_at h1.tiling h2.tiling hl hp hsh hti hord li lo n k hk
    change ∀ k, k < ishape.length → (out.at n).getPos.getD k 0 = (inp.at n).getPos.getD (perm.getD k 0) 0 ∧
      (out.at n).sizes.getD k 0 = (inp.at n).sizes.getD (perm.getD k 0) 0 at hat
    have s1 := hp1.lenS n
    have s2 := hp2.lenS n
    have p1 := hp1.lenP n
    have p2 := hp2.lenP n
    have r1 := h1.room.len
    have r2 := h2.room.len
    have t1 := h1.rank
    have t2 := h2.rank
    obtain ⟨d', k1, k2, k3⟩ := permute_tile (perm := perm) (szi := (inp.at n).sizes) (szo := (out.at n).sizes) (li := li) (lo := lo) (bi := bi) (bo := bo)
      (src := l) (dst := d) (by omega) (by omega) (hp2.pos n) (by omega) (by omega) (by rw [s1]; exact hp) (fun k hk => (hat k (by omega)).2)
      (fun y hy => by rw [hl']; exact h1.room.inb y (hp1.local_ hy)) (fun y hy => by rw [hd]; exact h2.room.inb y (hp2.local_ hy))
      (fun y z hy hz => h2.room.inj y z (hp2.local_ hy) (hp2.local_ hz))
    refine ⟨d', ?_, k2, fun y hy => ?_⟩
    · have e1 : (if n = 0 then inp.sizes else (inp.at n).sizes) = (inp.at n).sizes := by
        split
        · next h => subst h; rfl
        · rfl
      have e2 : (if n = 0 then out.sizes else (out.at n).sizes) = (out.at n).sizes := by
        split
        · next h => subst h; rfl
        · rfl
      show permuteIssue es perm l (tileT (if n = 0 then inp.sizes else (inp.at n).sizes) li bi)
        (tileT (if n = 0 then out.sizes else (out.at n).sizes) lo bo) d = _
      rw [e1, e2]
      unfold permuteIssue
      rw [if_pos (by omega), k1]
      rfl
    · obtain ⟨x, hxi, hrel, e⟩ := k3 y hy
      have lx : (inp.at n).sizes.length = x.length := inShape_length _ _ hxi
      have ly : (out.at n).sizes.length = y.length := inShape_length _ _ hy
      rw [e, hx x hxi]
      congr 2
      symm
      apply hsrc _ _ (hp1.global hxi)
      intro k hk
      have hpk := hp.1 k hk
      rw [addPos_coord (by show y.length = (out.at n).getPos.length; omega) (by omega), addPos_coord (by show x.length = (inp.at n).getPos.length; omega) (by omega)]
      rw [hrel k (by omega)]
      congr 1
      exact (hat k hk).1)
  exact ⟨s, _, q1, q2, q3, fun x y hx hy hrel => by rw [hsrc x y hx hrel]⟩

/-- C73: the kernels never report an error. -/
theorem c73_status (o : UnObj) (src dst dst' : Buf) (st : Status) (h : o.issue src dst = some (st, dst')) : st = .ok := by
  unfold UnObj.issue reduceSumIssue reduceMaxIssue permuteIssue at h
  have key : ∀ x : Option Buf, x.map (fun d => (Status.ok, d)) = some (st, dst') → st = .ok := by
    intro x hx
    rw [Option.map_eq_some_iff] at hx
    obtain ⟨_, _, hx⟩ := hx
    exact (Prod.mk.inj hx).1.symm
  have key2 : some (Status.ok, dst) = some (st, dst') → st = .ok := fun hx => (Prod.mk.inj (Option.some.inj hx)).1.symm
  split at h <;> repeat' split at h
  all_goals first | exact key _ h | exact key2 h

/-! ### Cases -/

/-- A 2x3x2 tensor, reduced along the second dimension, in four tiles. -/
def exRedIn : Glob := ⟨Buf.ofList [1, 20, 3, 40, -5, 60, 7, 8, 9, 10, 11, 12], [6, 2, 1]⟩

theorem tiling_of {shape tiles : List Int} (h0 : 0 < shape.length)
    (h : ∀ d ∈ List.range shape.length, 1 ≤ tiles.getD d 0 ∧ tiles.getD d 0 ≤ shape.getD d 0 ∧ shape.getD d 0 < 2 ^ 30) :
    TilingOk shape tiles (List.range shape.length) 0 := by
  refine ⟨by simp, h0, List.nodup_range, fun d hd => by simpa using hd, fun i hi => ?_⟩
  rw [List.length_range] at hi
  have e : (List.range shape.length).getD i 0 = i := by rw [List.getD_eq_getElem?_getD, List.getElem?_range hi]; rfl
  obtain ⟨h1, h2, h3⟩ := h i (by simpa using hi)
  rw [e, ite_self]
  exact ⟨⟨h1, h2⟩, ⟨le_refl _, by omega⟩, h3⟩

theorem inj_of {ns st : List Int} (h : ∀ y ∈ rowMajor ns, ∀ z ∈ rowMajor ns, offset st y = offset st z → y = z) (y z : List Int) (hy : InShape ns y)
    (hz : InShape ns z) : offset st y = offset st z → y = z := h y (mem_rowMajor.mpr hy) z (mem_rowMajor.mpr hz)

theorem exRedSide : SideOk [2, 3, 2] [1, 3, 1] [3, 1, 1] 1 4 exRedIn.strides exRedIn.buf.size :=
  ⟨tiling_of (by decide) (by decide), rfl, ⟨rfl, allIn (by decide), inj_of (by decide)⟩, allIn (by decide)⟩

theorem exRedSideOut : SideOk [2, 1, 2] [1, 1, 1] [1, 1, 1] 0 1 [3, 3, 1] 6 :=
  ⟨tiling_of (by decide) (by decide), rfl, ⟨rfl, allIn (by decide), inj_of (by decide)⟩, allIn (by decide)⟩

/-- The hypotheses of the theorem hold for this case. -/
example : ∃ s, UnHost.run exRedIn [3, 3, 1] 4 ⟨UnObj.new (.sum 1) 1 (tileIt [2, 3, 2] [1, 3, 1] [3, 1, 1]) (tileIt [2, 1, 2] [1, 1, 1] [1, 1, 1]) 1 0,
    Buf.ofList [0, 0, 0, 0], Buf.ofList [0], Buf.ofList [77, 77, 77, 77, 77, 77], .ok⟩ = some s ∧ s.status = .ok ∧ s.gout.get 1 = 120 ∧ s.gout.get 2 = 77 := by
  obtain ⟨s, h1, h2, h3⟩ := c73_reduce_sum_tiled 1 (Or.inl rfl) [2, 3, 2] [1, 3, 1] 1 (by decide) (by decide) rfl [3, 1, 1] [1, 1, 1] 1 0 exRedIn [3, 3, 1]
    (Buf.ofList [0, 0, 0, 0]) (Buf.ofList [0]) (Buf.ofList [77, 77, 77, 77, 77, 77]) exRedSide exRedSideOut (inj_of (by decide))
    (allIn (by decide))
  refine ⟨s, h1, h2, ?_, h3.frame 2 (allIn (P := fun x => offset [3, 3, 1] x ≠ 2) (by decide))⟩
  have := h3.elem [0, 0, 1] (by decide)
  exact this.trans (by decide)

example : (UnHost.run exRedIn [3, 3, 1] 4 ⟨UnObj.new (.sum 1) 1 (tileIt [2, 3, 2] [1, 3, 1] [3, 1, 1]) (tileIt [2, 1, 2] [1, 1, 1] [1, 1, 1]) 1 0,
    Buf.ofList [0, 0, 0, 0], Buf.ofList [0], Buf.ofList [77, 77, 77, 77, 77, 77], .ok⟩).map (fun s => (s.status, s.gout.toList)) =
    some (.ok, [-1, 120, 77, 27, 30, 77]) := by decide +kernel

theorem exRedSideBig : SideOk [2, 3, 2] [1, 3, 1] [6, 2, 1] 1 13 exRedIn.strides exRedIn.buf.size :=
  ⟨tiling_of (by decide) (by decide), rfl, ⟨rfl, allIn (by decide), inj_of (by decide)⟩, allIn (by decide)⟩

theorem exRedSideOutBig : SideOk [2, 1, 2] [1, 1, 1] [2, 2, 1] 0 4 [3, 3, 1] 6 :=
  ⟨tiling_of (by decide) (by decide), rfl, ⟨rfl, allIn (by decide), inj_of (by decide)⟩, allIn (by decide)⟩

/-- Reduce-max, with local buffers for the whole tensors. -/
example : ∃ s, ∃ val : List Int → Int, UnHost.run exRedIn [3, 3, 1] 4
      ⟨UnObj.new (.max 1) 1 (tileIt [2, 3, 2] [1, 3, 1] [6, 2, 1]) (tileIt [2, 1, 2] [1, 1, 1] [2, 2, 1]) 1 0, exZeros 13, exZeros 4, exZeros 6, .ok⟩ = some s ∧
    s.gout.get 1 = val [0, 0, 1] ∧ IsMax 3 (fun i => exRedIn.buf.get (offset exRedIn.strides [0, i, 1])) (val [0, 0, 1]) := by
  obtain ⟨s, val, h1, h2, h3, h4⟩ := c73_reduce_max_tiled_partial 1 (Or.inl rfl) [2, 3, 2] [1, 3, 1] 1 (by decide) (by decide) rfl [6, 2, 1] [2, 2, 1] 1 0
    exRedIn [3, 3, 1] (exZeros 13) (exZeros 4) (exZeros 6) exRedSideBig exRedSideOutBig (inj_of (by decide))
    ⟨rfl, allIn (by decide), inj_of (by decide)⟩ ⟨rfl, allIn (by decide), inj_of (by decide)⟩
  exact ⟨s, val, h1, h3.elem [0, 0, 1] (by decide), h4 [0, 0, 1] (by decide)⟩

example : (UnHost.run exRedIn [3, 3, 1] 4 ⟨UnObj.new (.max 1) 1 (tileIt [2, 3, 2] [1, 3, 1] [6, 2, 1]) (tileIt [2, 1, 2] [1, 1, 1] [2, 2, 1]) 1 0,
    exZeros 13, exZeros 4, exZeros 6, .ok⟩).map (fun s => (s.status, s.gout.toList)) = some (.ok, [3, 60, 0, 11, 12, 0]) := by decide +kernel

/-- A 2x3x2x2 tensor in four tiles along the second and fourth dimension; the permutation moves the second dimension to the front. -/
def exPerIn : Glob := ⟨Buf.ofList ((List.range 24).map fun i => (i : Int)), [12, 4, 2, 1]⟩

theorem exPerSide : SideOk [2, 3, 2, 2] [2, 2, 2, 1] [4, 2, 1, 1] 1 9 exPerIn.strides exPerIn.buf.size :=
  ⟨tiling_of (by decide) (by decide), rfl, ⟨rfl, allIn (by decide), inj_of (by decide)⟩, allIn (by decide +kernel)⟩

theorem exPerSideOut : SideOk [3, 2, 2, 2] [2, 2, 1, 2] [4, 2, 2, 1] 0 8 [8, 4, 2, 1] 25 :=
  ⟨tiling_of (by decide) (by decide), rfl, ⟨rfl, allIn (by decide), inj_of (by decide)⟩, allIn (by decide +kernel)⟩

/-- The hypotheses of the theorem hold for this case; the element at (1, 2, 0, 1) moves to (2, 1, 1, 0). -/
example : ∃ s, UnHost.run exPerIn [8, 4, 2, 1] 4
      ⟨UnObj.new (.permute [1, 0, 3, 2]) 1 (tileIt [2, 3, 2, 2] [2, 2, 2, 1] [4, 2, 1, 1]) (tileIt [3, 2, 2, 2] [2, 2, 1, 2] [4, 2, 2, 1]) 1 0,
        exZeros 9, exZeros 8, exZeros 25, .ok⟩ = some s ∧ s.status = .ok ∧ s.gout.get 22 = 21 := by
  obtain ⟨s, val, h1, h2, h3, h4⟩ := c73_permute_tiled_partial 1 (Or.inl rfl) [1, 0, 3, 2] [2, 3, 2, 2] [2, 2, 2, 1] [3, 2, 2, 2] [2, 2, 1, 2] (by decide) rfl
    ⟨by decide, fun i j h1 h2 => (show ∀ j < 4, ∀ i < j, ([1, 0, 3, 2] : List Nat).getD j 0 ≠ ([1, 0, 3, 2] : List Nat).getD i 0 by decide) j h2 i h1⟩
    (by decide) (by decide) (fun k l h1 h2 => (show ∀ l < 4, ∀ k < l, ([2, 2, 1, 2] : List Int).getD k 0 < ([3, 2, 2, 2] : List Int).getD k 0 →
      ([2, 2, 1, 2] : List Int).getD l 0 < ([3, 2, 2, 2] : List Int).getD l 0 → ([1, 0, 3, 2] : List Nat).getD k 0 < ([1, 0, 3, 2] : List Nat).getD l 0
      by decide) l h2 k h1) [4, 2, 1, 1] [4, 2, 2, 1] 1 0 exPerIn [8, 4, 2, 1] (exZeros 9) (exZeros 8) (exZeros 25)
    exPerSide exPerSideOut (inj_of (by decide +kernel))
  exact ⟨s, h1, h2, (h3.elem [2, 1, 1, 0] (by decide)).trans (h4 [1, 2, 0, 1] [2, 1, 1, 0] (by decide) (by decide) (by decide))⟩

/-! ### Violations -/

/-- **Violation**: the constructor of reduce-max gives the tiles the shape of the whole tensors.  With local buffers of the size of a tile (as in the user
tests) the first call of `Issue` reads and writes outside of them.  Reduce-sum works for the same buffers. -/
theorem c73_reduce_max_first_violated :
    SideOk [2, 3, 2] [1, 3, 1] [3, 1, 1] 1 4 exRedIn.strides exRedIn.buf.size ∧ SideOk [2, 1, 2] [1, 1, 1] [1, 1, 1] 0 1 [3, 3, 1] 6 ∧
    (UnHost.run exRedIn [3, 3, 1] 1 ⟨UnObj.new (.max 1) 1 (tileIt [2, 3, 2] [1, 3, 1] [3, 1, 1]) (tileIt [2, 1, 2] [1, 1, 1] [1, 1, 1]) 1 0,
      Buf.ofList [0, 0, 0, 0], Buf.ofList [0], Buf.ofList [77, 77, 77, 77, 77, 77], .ok⟩).isNone = true :=
  ⟨exRedSide, exRedSideOut, by decide +kernel⟩

/-- **Violation**: PERMUTE of a 2x2 tensor in tiles of one element with the dimensions exchanged.  Input and output iterators both visit dimension 0 first,
so the tiles do not correspond: all calls succeed and the output is the input, not its transpose. -/
theorem c73_permute_order_violated :
    (UnHost.run ⟨Buf.ofList [1, 2, 3, 4], [2, 1, 1, 1]⟩ [2, 1, 1, 1] 4
      ⟨UnObj.new (.permute [1, 0, 2, 3]) 1 (tileIt [2, 2, 1, 1] [1, 1, 1, 1] [1, 1, 1, 1]) (tileIt [2, 2, 1, 1] [1, 1, 1, 1] [1, 1, 1, 1]) 0 0,
        exZeros 1, exZeros 1, exZeros 4, .ok⟩).map (fun s => (s.status, s.gout.toList)) = some (.ok, [1, 2, 3, 4]) := by decide +kernel

/-- **Violation**: for elements of 16 bits PERMUTE reports success and writes nothing. -/
theorem c73_permute_16_violated (perm : PermCfg) (inp out : TIt) (bi bo : Int) (src dst : Buf) :
    (UnObj.new (.permute perm) 2 inp out bi bo).issue src dst = some (.ok, dst) := rfl

end Mli.Rt
