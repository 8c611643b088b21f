import Verif.Model.TileRun
import Verif.Props.Iter
import Verif.Props.View
import Verif.Lemmas.Map
import Verif.Lemmas.EltTile

/-! # Work on a tensor tile by tile -/

namespace Mli.Rt

open Mli Mli.Iter Mli.Spec

/-! ## The tiles -/

/-- Iterator after `n` calls of `Next`. -/
def TIt.at (t : TIt) (n : Nat) : TIt := { t with st := (nextN t.cfg n).1 }

theorem TIt.at_zero (cfg : List DimCfg) (shape strides : List Int) : (TIt.start cfg shape strides).at 0 = TIt.start cfg shape strides := rfl

theorem TIt.at_next (t : TIt) (n : Nat) : (t.at n).next = t.at (n + 1) := rfl

/-- Boxes that cover a tensor, inside of it and not larger than a tile. -/
structure TileSeq (shape tiles : List Int) (T : Nat) (ps sz : Nat → List Int) : Prop where
  lenT : tiles.length = shape.length
  lenP : ∀ n, (ps n).length = shape.length
  lenS : ∀ n, (sz n).length = shape.length
  box : ∀ n d, d < shape.length → 0 ≤ (ps n).getD d 0 ∧ 1 ≤ (sz n).getD d 0 ∧ (sz n).getD d 0 ≤ tiles.getD d 0 ∧
    (ps n).getD d 0 + (sz n).getD d 0 ≤ shape.getD d 0
  cover : ∀ x, InShape shape x → ∃ n, n < T ∧ ∃ y, InShape (sz n) y ∧ x = addPos y (ps n)

theorem tileSize_le {n tile skew : Int} (d : Int) (h : TileOk n tile skew) (s : DimSt) : tileSize n (tileDim d n tile skew) s ≤ tile := by
  obtain ⟨q, r, h1, h2, h3, h4, h5, e1, e2, e3, e4, e5, e6, e7⟩ := tileDim_facts d h
  have := h.hskew
  have := h.htile
  unfold tileSize
  split
  · rw [e7]
    have := Int.emod_lt_of_pos (n + skew - 1) (show 0 < tile by omega)
    omega
  · split
    · rw [e5]; omega
    · rw [e6]; exact Int.min_le_right _ _

theorem addPos_sub {x p : List Int} (h : x.length = p.length) : addPos (List.zipWith (· - ·) x p) p = x := by
  unfold addPos
  induction x generalizing p with
  | nil => simp
  | cons a x ih =>
    cases p with
    | nil => simp at h
    | cons b p =>
      simp only [List.zipWith_cons_cons]
      rw [ih (by simpa using h)]
      congr 1
      omega

theorem addPos_comm (x p : List Int) : addPos x p = addPos p x := by
  unfold addPos
  rw [List.zipWith_comm]
  congr 1
  funext a b
  exact Int.add_comm _ _

theorem inside_sub : ∀ {p s x : List Int}, p.length = x.length → s.length = x.length → Inside (p, s) x → InShape s (List.zipWith (· - ·) x p) := by
  intro p s x hp hs h
  rw [inShape_iff]
  refine ⟨by simp; omega, ?_⟩
  intro i hi
  have := h i (by omega)
  simp only at this
  have e : (List.zipWith (· - ·) x p).getD i 0 = x.getD i 0 - p.getD i 0 := by
    simp only [List.getD_eq_getElem?_getD, List.getElem?_zipWith]
    rw [List.getElem?_eq_getElem (show i < x.length by omega), List.getElem?_eq_getElem (show i < p.length by omega)]
    rfl
  rw [e]
  omega

/-- The tiles of an iterator that goes through the dimensions in their own order. -/
theorem tileSeq_range {shape tiles : List Int} {skew : Int} (h : TilingOk shape tiles (List.range shape.length) skew)
    (ht : tiles.length = shape.length) (strides : List Int) :
    let t := TIt.start (tileCfg shape tiles (List.range shape.length) skew) shape strides
    TileSeq shape tiles (totalCount t.cfg).toNat (fun n => (t.at n).getPos) fun n => (t.at n).sizes := by
  intro t
  have hcfg : t.cfg = tileCfg shape tiles (List.range shape.length) skew := rfl
  have hpos := tileCfg_count_pos h
  obtain ⟨c1, c2⟩ := c21_tiles_partition shape tiles (List.range shape.length) skew h
  rw [← hcfg] at c1 c2 hpos
  have hlen : t.cfg.length = shape.length := by simp [hcfg, tileCfg]
  have hord : t.cfg.map (·.order) = (List.range shape.length).map (fun d : Nat => (d : Int)) := by rw [hcfg, tileCfg_order]
  have hnd : (t.cfg.map (·.order)).Nodup := by
    rw [hord]; exact List.Nodup.map (fun a b hab => by exact_mod_cast hab) h.nodup
  have hb : ∀ c ∈ t.cfg, 0 ≤ c.order ∧ c.order < shape.length := by
    intro c hc
    obtain ⟨d, sk, hd, _, rfl⟩ := tileCfg_mem h (hcfg ▸ hc)
    simp only [tileDim]; omega
  have hsub := fun n : Int => subTensor_spec shape t.cfg (stateAt t.cfg n) (by rw [stateAt_length]) hnd hb
  have hst : ∀ n : Nat, (t.at n).st = stateAt t.cfg n := fun n => by
    show (nextN t.cfg n).1 = _
    rw [nextN_eq hpos]
  have hsz : ∀ n : Nat, (t.at n).sizes = (subTensor shape t.cfg (nextN t.cfg n).1).2 := fun n => rfl
  -- one dimension of one tile
  have hone : ∀ (n : Nat) (d : Nat), d < shape.length →
      (t.at n).getPos.getD d 0 = (subTensor shape t.cfg (nextN t.cfg n).1).1.getD d 0 ∧ (t.at n).sizes.getD d 0 ≤ tiles.getD d 0 := by
    intro n d hd
    have hlc : d < t.cfg.length := by omega
    have hls : d < (stateAt t.cfg n).length := by rw [stateAt_length]; omega
    have hp : (t.cfg[d], (stateAt t.cfg n)[d]) ∈ t.cfg.zip (stateAt t.cfg n) := by
      rw [← List.getElem_zip (h := by simp; omega)]
      exact List.getElem_mem _
    have hod : t.cfg[d].order = d := by
      have : (t.cfg.map (·.order))[d]? = some (d : Int) := by rw [hord]; simp [hd]
      rw [List.getElem?_map, List.getElem?_eq_getElem hlc] at this
      simpa using this
    obtain ⟨g1, g2⟩ := (hsub n).2.2 _ hp
    obtain ⟨z1, z2, z3⟩ := zip_stateAt t.cfg hpos n _ hp
    simp only [hod, Int.toNat_natCast] at g1 g2
    obtain ⟨d', sk, hd', hok, he⟩ := tileCfg_mem h (show t.cfg[d] ∈ tileCfg _ _ _ _ from List.getElem_mem hlc)
    obtain rfl : d' = d := by
      have : t.cfg[d].order = d' := by rw [he]; rfl
      omega
    have hposd : (t.at n).getPos.getD d' 0 = (stateAt t.cfg n)[d'].pos := by
      unfold TIt.getPos
      rw [hst, List.getD_eq_getElem?_getD, List.getElem?_map, List.getElem?_eq_getElem hls]; rfl
    rw [hsz, nextN_eq hpos, g1, g2, hposd]
    refine ⟨?_, ?_⟩
    · simp only [he] at z1 z3
      obtain ⟨s1, s2, s3, _⟩ := tileDim_spec d' hok _ ⟨z2, z3⟩
      have := hok.hsmall
      rw [z1, u32_id ⟨s1, by omega⟩]
    · rw [he]; exact tileSize_le d' hok _
  have hlp : ∀ n : Nat, (t.at n).getPos.length = shape.length := fun n => by
    unfold TIt.getPos; rw [List.length_map, hst, stateAt_length, hlen]
  have hls : ∀ n : Nat, (t.at n).sizes.length = shape.length := fun n => by
    rw [hsz, nextN_eq hpos]; exact (hsub n).2.1
  refine ⟨ht, hlp, hls, ?_, ?_⟩
  · intro n d hd
    obtain ⟨o1, o2⟩ := hone n d hd
    obtain ⟨b1, b2, b3⟩ := c1 n d hd
    rw [o1]
    exact ⟨b1, b2, o2, b3⟩
  · intro x hx
    obtain ⟨n, ⟨hn, hi⟩, -⟩ := c2 x hx
    have hxl := inShape_length _ _ hx
    have hpe : (t.at n).getPos = (subTensor shape t.cfg (nextN t.cfg n).1).1 := by
      apply List.ext_getElem?
      intro i
      by_cases hi : i < shape.length
      · have := (hone n i hi).1
        have l1 := hlp n
        have l2 : (subTensor shape t.cfg (nextN t.cfg n).1).1.length = shape.length := by rw [nextN_eq hpos]; exact (hsub n).1
        rw [List.getElem?_eq_getElem (by omega), List.getElem?_eq_getElem (by omega)]
        simp only [List.getD_eq_getElem?_getD] at this
        rw [List.getElem?_eq_getElem (by omega), List.getElem?_eq_getElem (by omega)] at this
        exact congrArg some this
      · have l1 := hlp n
        have l2 : (subTensor shape t.cfg (nextN t.cfg n).1).1.length = shape.length := by rw [nextN_eq hpos]; exact (hsub n).1
        rw [List.getElem?_eq_none (by omega), List.getElem?_eq_none (by omega)]
    refine ⟨n, ?_, List.zipWith (· - ·) x (t.at n).getPos, ?_, ?_⟩
    · rw [totalCount_eq]; omega
    · apply inside_sub (by rw [hlp, hxl]) (by rw [hls, hxl])
      rw [hpe]
      exact hi
    · rw [addPos_sub (by rw [hlp, hxl])]

/-! ## Facts about the boxes -/

theorem inShape_mono {s t : List Int} (hl : s.length = t.length) (h : ∀ d, d < t.length → s.getD d 0 ≤ t.getD d 0) {y : List Int}
    (hy : InShape s y) : InShape t y := by
  rw [inShape_iff] at hy ⊢
  refine ⟨by omega, fun i hi => ?_⟩
  have := hy.2 i (by omega)
  have := h i hi
  omega

theorem addPos_zeros {y size : List Int} (h : y.length = size.length) : addPos y (zeros size) = y := by
  unfold addPos zeros
  induction y generalizing size with
  | nil => simp
  | cons a y ih =>
    cases size with
    | nil => simp at h
    | cons n size =>
      simp only [List.map_cons, List.zipWith_cons_cons, Int.add_zero]
      rw [ih (by simpa using h)]

theorem addPos_inj {x y p : List Int} (hx : x.length = p.length) (hy : y.length = p.length) (h : addPos x p = addPos y p) : x = y := by
  unfold addPos at h
  induction p generalizing x y with
  | nil => rw [List.length_eq_zero_iff.mp hx, List.length_eq_zero_iff.mp hy]
  | cons b p ih =>
    cases x with
    | nil => simp at hx
    | cons a x =>
      cases y with
      | nil => simp at hy
      | cons c y =>
        simp only [List.zipWith_cons_cons, List.cons.injEq] at h
        rw [ih (by simpa using hx) (by simpa using hy) h.2]
        congr 1
        omega

namespace TileSeq

variable {shape tiles : List Int} {T : Nat} {ps sz : Nat → List Int}

theorem local_ (h : TileSeq shape tiles T ps sz) {n : Nat} {y : List Int} (hy : InShape (sz n) y) : InShape tiles y :=
  inShape_mono (by rw [h.lenS, h.lenT]) (fun d hd => (h.box n d (by rw [← h.lenT]; exact hd)).2.2.1) hy

theorem global (h : TileSeq shape tiles T ps sz) {n : Nat} {y : List Int} (hy : InShape (sz n) y) : InShape shape (addPos y (ps n)) := by
  rw [addPos_comm]
  exact Cs.inShape_addPos _ _ _ _ (h.lenP n) (fun d hd => ⟨(h.box n d hd).1, (h.box n d hd).2.2.2⟩) (h.lenS n) hy

theorem len (h : TileSeq shape tiles T ps sz) {n : Nat} {y : List Int} (hy : InShape (sz n) y) : y.length = shape.length := by
  rw [← inShape_length _ _ hy, h.lenS]

theorem pos (h : TileSeq shape tiles T ps sz) (n : Nat) : ∀ k ∈ sz n, 1 ≤ k := by
  intro k hk
  obtain ⟨i, hi, rfl⟩ := List.getElem_of_mem hk
  have := (h.box n i (by rw [← h.lenS n]; exact hi)).2.1
  rwa [List.getD_eq_getElem?_getD, List.getElem?_eq_getElem hi] at this

end TileSeq

/-! ## Copies -/

/-- The copy of a tile: source and destination in bounds, different positions at different addresses of the destination. -/
theorem copyBox_ok {size : List Int} {src : Buf} {sb : Int} {ss sp : List Int} {db : Int} {ds dp : List Int} {dst : Buf}
    (hs : ∀ y, InShape size y → 0 ≤ sb + offset ss (addPos y sp) ∧ sb + offset ss (addPos y sp) < src.size)
    (hd : ∀ y, InShape size y → 0 ≤ db + offset ds (addPos y dp) ∧ db + offset ds (addPos y dp) < dst.size)
    (hinj : ∀ y z, InShape size y → InShape size z → db + offset ds (addPos y dp) = db + offset ds (addPos z dp) → y = z) :
    ∃ dst', copyBox size src sb ss sp db ds dp dst = some dst' ∧ dst'.size = dst.size ∧
      (∀ y, InShape size y → dst'.get (db + offset ds (addPos y dp)) = src.get (sb + offset ss (addPos y sp))) ∧
      ∀ a, (∀ y, InShape size y → db + offset ds (addPos y dp) ≠ a) → dst'.get a = dst.get a := by
  obtain ⟨d', h1, h2⟩ := foldlM_stores (fun y => db + offset ds (addPos y dp)) (fun y => src.get (sb + offset ss (addPos y sp))) (rowMajor size)
    (fun d x => (src.rd (sb + offset ss (addPos x sp))).bind fun v => d.wr (db + offset ds (addPos x dp)) v) dst
    (fun y hy d' _ => by
      show (src.rd _).bind _ = _
      rw [Buf.rd_some (hs y (mem_rowMajor.mp hy)), Option.bind_some])
    (fun y hy => hd y (mem_rowMajor.mp hy))
    (fun y hy z hz e => by rw [hinj y z (mem_rowMajor.mp hy) (mem_rowMajor.mp hz) e])
  exact ⟨d', h1, h2.size, fun y hy => h2.hit y (mem_rowMajor.mpr hy), fun a ha => h2.frame a fun y hy => ha y (mem_rowMajor.mp hy)⟩

/-! ## The loop over the tiles -/

/-- A buffer that holds the result `val` for all elements of a tensor with strides `gs`, and is unchanged elsewhere. -/
structure Result (shape gs : List Int) (val : List Int → Int) (b b' : Buf) : Prop where
  size : b'.size = b.size
  elem : ∀ x, InShape shape x → b'.get (offset gs x) = val x
  frame : ∀ a, (∀ x, InShape shape x → offset gs x ≠ a) → b'.get a = b.get a

/-- If round `n` gives the elements of tile `n` their final values and keeps the others, all elements have their values after all rounds. -/
theorem tile_loop {σ : Type} {shape tiles : List Int} {T : Nat} {ps sz : Nat → List Int} (h : TileSeq shape tiles T ps sz)
    {gs : List Int} (hinj : ∀ x y, InShape shape x → InShape shape y → offset gs x = offset gs y → x = y) (val : List Int → Int)
    (f : σ → Option σ) (out : σ → Buf) (J : Nat → σ → Prop) (s : σ) (h0 : J 0 s)
    (hstep : ∀ n s, n < T → J n s → ∃ s', f s = some s' ∧ J (n + 1) s' ∧ (out s').size = (out s).size ∧
      (∀ y, InShape (sz n) y → (out s').get (offset gs (addPos y (ps n))) = val (addPos y (ps n))) ∧
      ∀ a, (∀ y, InShape (sz n) y → offset gs (addPos y (ps n)) ≠ a) → (out s').get a = (out s).get a) :
    ∃ s', forRange T (fun _ s => f s) s = some s' ∧ J T s' ∧ Result shape gs val (out s) (out s') := by
  obtain ⟨s', h1, h2, h3, h4, h5⟩ := forRange_inv (n := T) (f := fun _ s => f s) (s := s)
    (fun n s' => J n s' ∧ (out s').size = (out s).size ∧
      (∀ m, m < n → ∀ y, InShape (sz m) y → (out s').get (offset gs (addPos y (ps m))) = val (addPos y (ps m))) ∧
      ∀ a, (∀ x, InShape shape x → offset gs x ≠ a) → (out s').get a = (out s).get a)
    ⟨h0, rfl, fun m hm => by omega, fun _ _ => rfl⟩
    (by
      rintro n s1 hn ⟨i1, i2, i3, i4⟩
      obtain ⟨s2, k1, k2, k3, k4, k5⟩ := hstep n s1 hn i1
      refine ⟨s2, k1, k2, by omega, ?_, ?_⟩
      · intro m hm y hy
        by_cases he : ∃ z, InShape (sz n) z ∧ offset gs (addPos z (ps n)) = offset gs (addPos y (ps m))
        · obtain ⟨z, hz, e⟩ := he
          rw [← e, k4 z hz, hinj _ _ (h.global hz) (h.global hy) e]
        · have hne : m ≠ n := by
            rintro rfl
            exact he ⟨y, hy, rfl⟩
          rw [k5 _ (fun z hz e => he ⟨z, hz, e⟩)]
          exact i3 m (by omega) y hy
      · intro a ha
        rw [k5 a fun y hy => ha _ (h.global hy)]
        exact i4 a ha)
  refine ⟨s', h1, h2, h3, ?_, h5⟩
  intro x hx
  obtain ⟨n, hn, y, hy, rfl⟩ := h.cover x hx
  exact h4 n hn y hy

end Mli.Rt
