import Verif.Spec.Broadcast
import Verif.Model.Broadcast
import Verif.Lemmas.Pos
import Verif.Props.Permute

/-! # Broadcasting move (C48) -/

namespace Mli

open Spec

/-- The source point of a loop point. -/
def srcPt (ts td : Tensor) (p : Nat × Nat × Nat × Nat) : Nat × Nat × Nat × Nat :=
  let idx (k i : Nat) : Nat := if ts.gShape k ≠ td.gShape k then 0 else i
  (idx 0 p.1, idx 1 p.2.1, idx 2 p.2.2.1, idx 3 p.2.2.2)

theorem srcPt_mem {ts td : Tensor} (hs : ∀ k, 1 ≤ ts.gShape k) {p : Nat × Nat × Nat × Nat} (hp : p ∈ td.pts) : srcPt ts td p ∈ ts.pts := by
  rw [Tensor.pts, mem_pts4] at *
  unfold srcPt
  refine ⟨?_, ?_, ?_, ?_⟩ <;> simp only [] <;> split
  · have := hs 0; omega
  · next h => rw [not_not.mp h]; exact hp.1
  · have := hs 1; omega
  · next h => rw [not_not.mp h]; exact hp.2.1
  · have := hs 2; omega
  · next h => rw [not_not.mp h]; exact hp.2.2.1
  · have := hs 3; omega
  · next h => rw [not_not.mp h]; exact hp.2.2.2

theorem gShape_pos {t : Tensor} {mem : Buf} (h : t.Valid mem) (k : Nat) : 1 ≤ t.gShape k := by
  unfold Tensor.gShape
  cases hd : t.dims[k]? with
  | none => simp
  | some d => simpa using h.shape_pos d (List.mem_of_getElem? hd)

theorem cast_ite_zero (c : Prop) [Decidable c] (n : Nat) : ((if c then 0 else n : Nat) : Int) = if c then 0 else (n : Int) := by split <;> rfl

theorem srcPt_idx {ts td : Tensor} (hr : ts.dims.length ≤ 4) (hl : ts.dims.length = td.dims.length) (p : Nat × Nat × Nat × Nat) :
    idx4 ts.dims.length (srcPt ts td p) = bcastIdx ts.shape td.shape (idx4 td.dims.length p) := by
  obtain ⟨ds, bs, cs, es⟩ := ts
  obtain ⟨dd, bd, cd, ed⟩ := td
  simp only at hl hr
  rcases list_le4_cases ds hr with rfl | ⟨a, rfl⟩ | ⟨a, b, rfl⟩ | ⟨a, b, c, rfl⟩ | ⟨a, b, c, d, rfl⟩ <;>
  rcases list_le4_cases dd (by omega) with rfl | ⟨a', rfl⟩ | ⟨a', b', rfl⟩ | ⟨a', b', c', rfl⟩ | ⟨a', b', c', d', rfl⟩ <;>
  simp only [List.length_cons, List.length_nil] at hl <;> first | omega | skip
  all_goals
    simp [idx4, srcPt, Tensor.gShape, Tensor.shape, bcastIdx, cast_ite_zero]

/-- C48: broadcasting copies to each element of the destination the element of the source with the coordinates of the broadcast
dimensions replaced by 0, and changes nothing else. -/
theorem c48_broadcast (src dst : Buf) (ts td : Tensor) (vs : ts.Valid src) (vd : td.Valid dst) (hl : ts.dims.length = td.dims.length) :
    ∃ dst' val, moveBroadcast src ts td dst = some dst' ∧ td.Writes val dst dst' ∧
      ∀ is, InShape td.shape is → InShape ts.shape (bcastIdx ts.shape td.shape is) ∧
        val is = src.get (ts.addr (bcastIdx ts.shape td.shape is)) := by
  obtain ⟨dst', h1, h2⟩ := forPos_inplace td td dst vd rfl (fun is => src.get (ts.addr (bcastIdx ts.shape td.shape is)))
    (fun a b c e d =>
      let idx (k i : Nat) : Nat := if ts.gShape k ≠ td.gShape k then 0 else i
      (src.rd (ts.gPos (idx 0 a) (idx 1 b) (idx 2 c) (idx 3 e))).bind fun v => d.wr (td.gPos a b c e) v)
    (fun q hq d' hd hfr => by
      have hm := srcPt_mem (fun k => gShape_pos vs k) hq
      have e := gPos_eq vs.rank hm
      have hin := (pts_inShape vs.rank hm).1
      rw [gPos_eq vd.rank hq, ← srcPt_idx vs.rank hl]
      change (src.rd (ts.gPos (srcPt ts td q).1 (srcPt ts td q).2.1 (srcPt ts td q).2.2.1 (srcPt ts td q).2.2.2)).bind _ = _
      rw [e, vs.rd hin rfl, Option.bind_some])
  refine ⟨dst', _, h1, h2, fun is hi => ⟨?_, rfl⟩⟩
  obtain ⟨p, hp, rfl⟩ := pts_onto vd.rank hi
  rw [← srcPt_idx vs.rank hl]
  exact (pts_inShape vs.rank (srcPt_mem (fun k => gShape_pos vs k) hp)).1

/-- A column of 2 is repeated in 3 columns. -/
example : let s : Tensor := { dims := [⟨2, 2⟩, ⟨1, 1⟩], cap := 3, es := 1 }
    let d : Tensor := { dims := [⟨2, 4⟩, ⟨3, 1⟩], cap := 7, es := 1, base := 1 }
    s.Valid (Buf.ofList [5, 99, 6]) ∧ d.Valid (Buf.ofList (List.replicate 9 0)) ∧
    (moveBroadcast (Buf.ofList [5, 99, 6]) s d (Buf.ofList (List.replicate 9 0))).map (·.toList) = some [0, 5, 5, 5, 0, 6, 6, 6, 0] ∧
    bcastIdx s.shape d.shape [1, 2] = [1, 0] :=
  ⟨⟨by decide, by decide, by decide, by decide⟩, ⟨by decide, by decide, by decide, by decide⟩, by decide +kernel, by decide⟩

end Mli
