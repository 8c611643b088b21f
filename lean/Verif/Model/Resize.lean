import Verif.Model.Rescale

/-!
# Model of bilinear resizing
-/

namespace Mli

/-- include/mli_types.hpp:1038-1054 `ResizeOpConfig`. -/
structure ResizeCfg where
  strideH : Int
  strideW : Int
  offsetH : Int
  offsetW : Int
  shift : Nat

/-- `POS(&tsr, b, h, w, c)` (private/mli_prv_tensor.h:45-58) for any coordinates, behind the data pointer. -/
def Tensor.iPos (t : Tensor) (a b c e : Int) : Int :=
  t.base + (a * t.gStride 0 + b * t.gStride 1 + c * t.gStride 2 + e * t.gStride 3)

/-- kernels/conversion/impl/mli_resize_bilinear_ref.hpp:39-43 (rows) and 45-49 (columns): the two neighbours and the distance from the
first one, for output row (column) `i` and an input of `n` rows.  `row_int << shift` of a negative number is taken to be the
multiplication. -/
def resizePos (shift : Nat) (stride offset n i : Int) : Option (Int × Int × Int) :=
  (ckd 32 (i * stride)).bind fun p =>
  (ckd 32 (p + offset)).bind fun fx =>
  (ckd 32 (fx / 2 ^ shift + 1)).bind fun nxt =>
  some (min (max (fx / 2 ^ shift) 0) (n - 1), min nxt (n - 1), fx - fx / 2 ^ shift * 2 ^ shift)

/-- `v * f * g` in `int` arithmetic. -/
def mul3 (v f g : Int) : Option Int := (ckd 32 (v * f)).bind fun t => ckd 32 (t * g)

/-- mli_resize_bilinear_ref.hpp:52-61. -/
def resizeValue (shift : Nat) (src : Buf) (t : Tensor) (b c r0 r1 dr c0 c1 dc : Int) : Option Int :=
  (src.rd (t.iPos b r0 c0 c)).bind fun v00 =>
  (src.rd (t.iPos b r0 c1 c)).bind fun v01 =>
  (src.rd (t.iPos b r1 c0 c)).bind fun v10 =>
  (src.rd (t.iPos b r1 c1 c)).bind fun v11 =>
  (mul3 v00 (2 ^ shift - dr) (2 ^ shift - dc)).bind fun a =>
  (mul3 v01 (2 ^ shift - dr) dc).bind fun b =>
  (ckd 32 (a + b)).bind fun s1 =>
  (mul3 v10 dr (2 ^ shift - dc)).bind fun c =>
  (ckd 32 (s1 + c)).bind fun s2 =>
  (mul3 v11 dr dc).bind fun d =>
  ckd 32 (s2 + d)

/-- kernels/conversion/impl/mli_resize_bilinear_ref.hpp:24-70 `mli_resize_bilinear`, called by `run_mli_resize_bilinear_standalone`
(mli_resize_bilinear_runtime.cc:22-43), whose assertions do nothing in the modelled configuration. -/
def resizeBilinear (cfg : ResizeCfg) (src : Buf) (tin tout : Tensor) (dst : Buf) : Option Buf :=
  forRange (tout.gShape 0).toNat (fun b => forRange (tout.gShape 1).toNat (fun h d =>
    (resizePos cfg.shift cfg.strideH cfg.offsetH (tin.gShape 1) h).bind fun row =>
    forRange (tout.gShape 2).toNat (fun w d =>
      (resizePos cfg.shift cfg.strideW cfg.offsetW (tin.gShape 2) w).bind fun col =>
      forRange (tout.gShape 3).toNat (fun c d =>
        (resizeValue cfg.shift src tin b c row.1 row.2.1 row.2.2 col.1 col.2.1 col.2.2).bind fun v =>
        d.wr (tout.gPos b h w c) v) d) d)) dst

end Mli
