import Verif.Model.L2Norm

/-!
# Model of the creation of look-up tables

`mli_krn_{sigm,tanh,softmax,l2_normalize}_get_lut_size` and `.._create_lut`.  The user passes a
descriptor with a pointer and a capacity; the memory is modelled as 16-bit elements and the pointer as
an element address.
-/

namespace Mli

open Spec (InRange)

/-- include/mli_types.h:173-181 `mli_lut` as the user sees it: `ptr` and `capacity` (bytes, `uint32_t`) of
the data container, `typ` (an `mli_element_type`) and the integer members. -/
structure LutDesc where
  ptr : Int
  capacity : Int
  typ : Int
  length : Int
  inFrac : Int
  outFrac : Int
  inOffset : Int
  outOffset : Int
deriving DecidableEq, Repr

/-- include/mli_types.h:71-85 `MLI_EL_FX_16 = 0x10`. -/
def elFx16 : Int := 16

/-- The table behind a descriptor, as the kernels read it. -/
def LutDesc.lut (u : LutDesc) (mem : Buf) : Lut where
  data := { size := mem.size - u.ptr, get := fun i => mem.get (u.ptr + i) }
  length := u.length
  inFrac := u.inFrac
  outFrac := u.outFrac
  inOffset := u.inOffset

/-- kernels/transform/mli_krn_sigm_fx.cc:79-81, mli_krn_tanh_fx.cc:79-81, mli_krn_softmax_fx.cc:55-57,
mli_krn_l2_normalize.cc:47-49: the size in bytes. -/
def lutSize (t : Lut) : Int := t.length * 2

/-- private/src/mli_check.cc:104-118 `mli_chk_lut`: `(int)capacity >= buff_size` (the alignment check exists
only for the DSP platforms). -/
def chkLut (u : LutDesc) (size : Int) : Status :=
  if wrap 32 u.capacity ≥ size then .ok else .notEnghMem

/-- kernels/transform/mli_krn_sigm_fx.cc:83-96, mli_krn_tanh_fx.cc:83-96, mli_krn_softmax_fx.cc:59-72,
mli_krn_l2_normalize.cc:51-64: creation of the library table `t` in the memory of the user.  The capacity of the
library table is its size (private/src/mli_prv_activation_lut.cc:69-78, 135-144, 203-212, 239-247); its
output offset is not initialised explicitly, thus 0. -/
def createLut (t : Lut) (u : LutDesc) (mem : Buf) : Option (Status × LutDesc × Buf) := do
  let u := { u with typ := elFx16 }
  let s := chkLut u (lutSize t)
  if s ≠ .ok then return (s, u, mem)
  let mem' ← forRange t.length.toNat (fun i d => do
    let v ← t.data.rd i
    d.wr (u.ptr + i) v) mem
  return (.ok, { u with inFrac := t.inFrac, length := t.length, inOffset := t.inOffset, outOffset := 0, outFrac := t.outFrac }, mem')

/-- mli_krn_sigm_fx.cc:79-96. -/
def sigmGetLutSize : Int := lutSize sigmoidLut
def sigmCreateLut := createLut sigmoidLut
/-- mli_krn_tanh_fx.cc:79-96. -/
def tanhGetLutSize : Int := lutSize tanhLut
def tanhCreateLut := createLut tanhLut
/-- mli_krn_softmax_fx.cc:55-72. -/
def softmaxGetLutSize : Int := lutSize expnegLut
def softmaxCreateLut := createLut expnegLut
/-- mli_krn_l2_normalize.cc:47-64. -/
def l2GetLutSize : Int := lutSize invsqrtLut
def l2CreateLut := createLut invsqrtLut

end Mli
