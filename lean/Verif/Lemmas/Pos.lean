import Verif.Lemmas.Generic
import Verif.Lemmas.Map
import Verif.Model.Rescale

/-! # Loops over all positions of a tensor -/

namespace Mli

open Spec

theorem nodup_pairs {α β : Type} {L : List α} {M : List β} (hL : L.Nodup) (hM : M.Nodup) :
    (L.flatMap fun a => M.map fun b => (a, b)).Nodup := by
  rw [List.nodup_flatMap]
  refine ⟨fun a _ => hM.map fun x y h => (Prod.mk.inj h).2, hL.imp fun {a b} hab => ?_⟩
  intro x hx hy
  simp only [List.mem_map] at hx hy
  obtain ⟨y, -, rfl⟩ := hx
  obtain ⟨z, -, e⟩ := hy
  exact hab (Prod.mk.inj e).1.symm

theorem nodup_pts4 (n0 n1 n2 n3 : Nat) : (pts4 n0 n1 n2 n3).Nodup :=
  nodup_pairs List.nodup_range (nodup_pairs List.nodup_range (nodup_pairs List.nodup_range List.nodup_range))

theorem gShape_eq (t : Tensor) (k : Nat) : t.gShape k = (t.shape[k]?).getD 1 := by
  simp [Tensor.gShape, Tensor.shape]

theorem pts_congr {t u : Tensor} (h : t.shape = u.shape) : t.pts = u.pts := by
  simp only [Tensor.pts, gShape_eq, h]

theorem length_congr {t u : Tensor} (h : t.shape = u.shape) : t.dims.length = u.dims.length := by
  have := congrArg List.length h
  simpa [Tensor.shape] using this

theorem idx4_inj {t : Tensor} (h : t.dims.length ≤ 4) {p q : Nat × Nat × Nat × Nat} (hp : p ∈ t.pts) (hq : q ∈ t.pts)
    (e : idx4 t.dims.length p = idx4 t.dims.length q) : p = q := by
  obtain ⟨p0, p1, p2, p3⟩ := p
  obtain ⟨q0, q1, q2, q3⟩ := q
  rw [Tensor.pts, mem_pts4] at hp hq
  obtain ⟨dims, base, cap, es⟩ := t
  rcases list_le4_cases dims h with rfl | ⟨a, rfl⟩ | ⟨a, b, rfl⟩ | ⟨a, b, c, rfl⟩ | ⟨a, b, c, d, rfl⟩ <;>
    simp [Tensor.gShape, idx4] at hp hq e ⊢ <;> omega

/-- Position of a loop point: an element of the tensor. -/
theorem gPos_eq {t : Tensor} (h : t.dims.length ≤ 4) {p : Nat × Nat × Nat × Nat} (hp : p ∈ t.pts) :
    t.gPos p.1 p.2.1 p.2.2.1 p.2.2.2 = t.addr (idx4 t.dims.length p) := by
  rw [Tensor.addr, (pts_inShape h hp).2]
  rfl

/-- Loops over the positions of `tl` that compute each element of `out`, a tensor of that shape, from memory which
no other element's store touches. -/
theorem forPos_inplace (tl out : Tensor) (mem : Buf) (ho : out.Valid mem) (hs : tl.shape = out.shape) (val : List Int → Int)
    (f : Nat → Nat → Nat → Nat → Buf → Option Buf)
    (hf : ∀ p ∈ out.pts, ∀ d' : Buf, d'.size = mem.size →
      (∀ a, (∀ js, InShape out.shape js → js ≠ idx4 out.dims.length p → out.addr js ≠ a) → d'.get a = mem.get a) →
      f p.1 p.2.1 p.2.2.1 p.2.2.2 d' = d'.wr (out.addr (idx4 out.dims.length p)) (val (idx4 out.dims.length p))) :
    ∃ mem', forPos tl f mem = some mem' ∧ out.Writes val mem mem' := by
  have hr := ho.rank
  unfold forPos
  rw [nest4_eq_foldlM]
  change ∃ mem', List.foldlM _ mem tl.pts = some mem' ∧ _
  rw [pts_congr hs]
  obtain ⟨d', h1, h2⟩ := foldlM_inplace (fun p => out.addr (idx4 out.dims.length p)) (fun p => val (idx4 out.dims.length p))
    (fun (s : Buf) (p : Nat × Nat × Nat × Nat) => f p.1 p.2.1 p.2.2.1 p.2.2.2 s) mem out.pts (nodup_pts4 _ _ _ _)
    (fun p hp d' hd hfr => hf p hp d' hd (fun a ha => hfr a (fun q hq hne => ha _ (pts_inShape hr hq).1
      (fun e => hne (idx4_inj hr hq hp e)))))
    (fun p hp => ho.inBounds (pts_inShape hr hp).1)
    (fun p hp q hq e => idx4_inj hr hp hq
      (Tensor.Separate.refl out mem ho _ _ (pts_inShape hr hp).1 (pts_inShape hr hq).1 e))
  refine ⟨d', h1, h2.size, fun is hi => ?_, fun a ha => h2.frame a (fun q hq => ha _ (pts_inShape hr hq).1)⟩
  obtain ⟨p, hp, rfl⟩ := pts_onto hr hi
  exact h2.hit p hp

end Mli
