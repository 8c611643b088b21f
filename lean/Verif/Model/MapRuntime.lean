import Verif.Model.Params

/-!
# Model of the run-time kernels `Rescale` and `PRelu` (`lib/src/kernels/conversion/mli_krn_rescale_runtime.cc`,
`lib/src/kernels/transform/mli_krn_prelu_runtime.cc`)

Input and output have elements of different types.  Their tiles are in separate buffers of elements, the parameters are in a buffer of bytes.
-/

namespace Mli.Rt
open Mli Mli.Iter Mli.Spec

/-- The six parameter arrays of `PRelu`. -/
structure PreluParams where
  bias : Buf
  pos : Buf
  neg : Buf
  posShift : Buf
  negShift : Buf
  asymm : Buf

/-- lib/src/kernels/transform/impl/mli_krn_prelu_ref.h:431-442, 470-479: one element; the difference of line 434 has type `int`.  `scale_value`
(lines 388-407) is `rescale_value` for an input of 32 bits. -/
def preluAt (m : Rnd) (wo : Nat) (p : PreluParams) (idx x : Int) : Option Int :=
  (p.bias.rd idx).bind fun b =>
  (ckd 32 (x - b)).bind fun d =>
  if d ≥ 0 then
    (p.asymm.rd idx).bind fun bo => (p.pos.rd idx).bind fun s => (p.posShift.rd idx).map fun k => rescaleValue m 32 wo x b bo s k
  else
    (p.asymm.rd idx).bind fun bo => (p.neg.rd idx).bind fun s => (p.negShift.rd idx).map fun k => rescaleValue m 32 wo x b bo s k

/-- mli_krn_prelu_ref.h:409-526 `mli_krn_prelu` with `compute_prelu_per_axis` and `compute_prelu_per_tensor`: five nested loops. -/
def krnPrelu (m : Rnd) (wo : Nat) (axis : Int) (p : PreluParams) (src : Buf) (tin tout : Tensor) (dst : Buf) : Option Buf :=
  (rowMajor tin.shape).foldlM (fun d is =>
    (src.rd (tin.base + offset tin.strides is)).bind fun x =>
    (preluAt m wo p (if axis < 0 then 0 else is.getD axis.toNat 0) x).bind fun v => d.wr (tout.base + offset tout.strides is) v) dst

/-- mli_krn_prelu_runtime.cc:63-108 `Prelu::Issue`: the assertions for the other element sizes are compiled out. -/
def preluIssue (m : Rnd) (esi eso : Nat) (axis : Int) (p : PreluParams) (src : Buf) (tin tout : Tensor) (dst : Buf) : Option (Status × Buf) :=
  if esi = 4 ∧ eso = 1 then (krnPrelu m 8 axis p src tin tout dst).map fun d => (.ok, d) else some (.ok, dst)

/-- include/api/mli_ref_runtime_api.hpp:703-730, 966-992: the members of `Rescale` and `Prelu` (`prelu`).  `esi`, `eso` are the bytes of input and output
elements, `par` is `m_enc_param` (only `Rescale` has it), `np` is `m_tile_param_max_size`, `pb` the address of the local parameters and `imm` holds the
parameters of a `Rescale` with one set of parameters. -/
structure MapObj where
  prelu : Bool
  esi : Nat
  eso : Nat
  axis : Int
  inp : TIt
  par : TIt
  out : TIt
  tin : Tensor
  tout : Tensor
  np : Int
  pb : Int
  imm : RescaleParams

/-- mli_krn_rescale_runtime.cc:34-39, mli_krn_prelu_compiler.cc:95-98: the number of parameter sets that the local buffer has room for. -/
def maxParams (prelu : Bool) (axis : Int) (inp par : TIt) : Int :=
  if prelu then
    let v := max ((inp.cfg.map (·.firstInc)).getD (inp.shape.length - 1) 0) ((inp.cfg.map (·.inc)).getD (inp.shape.length - 1) 0)
    if v = 0 then inp.shape.getD 4 0 else v
  else if axis = -1 then 1
  else max ((par.cfg.map (·.firstSize)).getD axis.toNat 0) ((par.cfg.map (·.size)).getD axis.toNat 0)

/-- tests_mli_krn_depthwise_conv_30.cc:513-518: the iterator of the `n` sets of parameters of a `Rescale` along dimension `axis`, which follows the iterator
of the input (there `axis` is the last dimension). -/
def parIt (cfg : List DimCfg) (n : Int) (axis : Nat) : TIt :=
  TIt.start (followCfg cfg [n] (some ((List.range 4).map fun d => if d = axis then 0 else -1)) ((List.range 4).map fun d => decide (d ≠ axis))) [n] [1]

/-- mli_krn_rescale_runtime.cc:77-158 for one set of parameters: the values are read here. -/
def immParams (esi eso : Nat) (ptrs : List Int) (pm : Buf) : Option RescaleParams :=
  (getLe esi (ptrs.getD 0 0) pm).bind fun b => (getLe 2 (ptrs.getD 1 0) pm).bind fun s => (getLe 1 (ptrs.getD 2 0) pm).bind fun k =>
  (getLe eso (ptrs.getD 3 0) pm).map fun bo => ⟨Buf.ofList [b], Buf.ofList [s], Buf.ofList [k], Buf.ofList [bo]⟩

/-- mli_krn_rescale_runtime.cc:21-160, mli_krn_prelu_runtime.cc:21-61 the constructors, from the iterators and buffer addresses of the private data. -/
def MapObj.new (prelu : Bool) (esi eso : Nat) (axis : Int) (inp par out : TIt) (bi bo pb : Int) (pm : Buf) : Option MapObj :=
  let np := maxParams prelu axis inp par
  (if prelu || axis ≠ -1 then some ⟨Buf.ofList [], Buf.ofList [], Buf.ofList [], Buf.ofList []⟩
    else immParams esi eso (rescalePtrs pb np esi) pm).map fun imm =>
  { prelu, esi, eso, axis, inp, par, out, np, pb, imm
    tin := { dims := List.zipWith Dim.mk inp.sizes inp.strides, base := bi, cap := 0, es := 1 }
    tout := { dims := List.zipWith Dim.mk out.sizes out.strides, base := bo, cap := 0, es := 1 } }

/-- The arrays that the pointers of a `Rescale` refer to. -/
def MapObj.rescaleParams (o : MapObj) (pm : Buf) : RescaleParams :=
  if o.axis = -1 then o.imm
  else
    let p := rescalePtrs o.pb o.np o.esi
    ⟨typed o.esi (p.getD 0 0) pm, typed 2 (p.getD 1 0) pm, typed 1 (p.getD 2 0) pm, typed o.eso (p.getD 3 0) pm⟩

/-- The arrays that the pointers of a `Prelu` refer to. -/
def MapObj.preluParams (o : MapObj) (pm : Buf) : PreluParams :=
  let p := preluPtrs o.pb o.np
  ⟨typed 4 (p.getD 0 0) pm, typed 2 (p.getD 1 0) pm, typed 2 (p.getD 2 0) pm, typed 1 (p.getD 3 0) pm, typed 1 (p.getD 4 0) pm, typed 1 (p.getD 5 0) pm⟩

/-- `Issue` of both kernels. -/
def MapObj.issue (m : Rnd) (o : MapObj) (pm src dst : Buf) : Option (Status × Buf) :=
  if o.prelu then preluIssue m o.esi o.eso o.axis (o.preluParams pm) src o.tin o.tout dst
  else rescaleIssue m o.esi o.eso o.axis (o.rescaleParams pm) src o.tin o.tout dst

/-- mli_krn_rescale_runtime.cc:228-238, mli_krn_prelu_runtime.cc:112-126 `Update`. -/
def MapObj.update (o : MapObj) : MapObj :=
  { o with
    inp := o.inp.next
    par := o.par.next
    out := o.out.next
    tin := setShape o.tin o.inp.next.sizes
    tout := setShape o.tout o.out.next.sizes }

/-- `GetIOSizesAndOffsets`: number of parameter sets of the tile (mli_krn_rescale_runtime.cc:242, mli_krn_prelu_runtime.cc:130). -/
def MapObj.parCount (o : MapObj) : Int := if o.prelu then o.tin.shape.getD 4 0 else o.par.sizes.getD 0 0

/-- `GetIOSizesAndOffsets`: the offsets of the arrays. -/
def MapObj.parOffsets (o : MapObj) : List Int := if o.prelu then preluOffsets o.np else rescaleOffsets o.np o.esi

/-- The bytes of the elements of the arrays. -/
def MapObj.parSizes (o : MapObj) : List Nat := if o.prelu then [4, 2, 2, 1, 1, 1] else [o.esi, 2, 1, o.eso]

/-- State of the caller: the object, the local buffers of the input tile, the output tile and the parameters, the output in global memory and the status
of the calls so far. -/
structure MapHost where
  obj : MapObj
  lin : Buf
  lout : Buf
  pm : Buf
  gout : Buf
  status : Status

/-- user_tests/tests/mli_krn_depthwise_conv_30/tests_mli_krn_depthwise_conv_30.cc:856-940, mli_krn_conv2d_30/tests_mli_krn_conv2d_30.cc:1100-1197: one round
of the caller's loop: input tile, parameters of the tile (if there is more than one set), `Issue`, output tile, `Update`.  There the input tile is the output of a convolution, here it comes from
global memory.  `enc` holds `n` encoded sets of parameters. -/
def MapHost.round (m : Rnd) (gin : Glob) (enc : Buf) (n : Int) (gos : List Int) (s : MapHost) : Option MapHost :=
  let o := s.obj
  (copyBox o.inp.sizes gin.buf 0 gin.strides o.inp.getPos o.tin.base o.inp.strides (zeros o.inp.sizes) s.lin).bind fun lin =>
  (if o.axis = -1 then some s.pm
    else fetchParams n (o.out.getPos.getD o.axis.toNat 0) o.parCount o.pb enc o.parSizes o.parOffsets 0 s.pm).bind fun pm =>
  (o.issue m pm lin s.lout).bind fun r =>
  (copyBox o.out.sizes r.2 o.tout.base o.out.strides (zeros o.out.sizes) 0 gos o.out.getPos s.gout).map fun gout =>
    { obj := o.update, lin, lout := r.2, pm, gout, status := if s.status ≠ .ok then s.status else r.1 }

/-- `k` rounds. -/
def MapHost.run (m : Rnd) (gin : Glob) (enc : Buf) (n : Int) (gos : List Int) (k : Nat) (s : MapHost) : Option MapHost :=
  forRange k (fun _ s => s.round m gin enc n gos) s

end Mli.Rt
