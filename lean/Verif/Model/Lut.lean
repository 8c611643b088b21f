import Verif.Model.Squash
import Verif.Model.Math

/-!
# Model of the table-driven activations (`lib/src/bricks/impl/mli_prv_lut_ref.h`)
-/

namespace Mli

open Spec (lo hi InRange Rnd)

/-- include/mli_types.h:173-181 `mli_lut`; `data` are the `int16_t` elements behind the pointer. -/
structure Lut where
  data : Buf
  length : Int
  inFrac : Int
  outFrac : Int
  inOffset : Int

/-- Kind of input: `convert_input = fx_with_in_offset = false`, `fx_with_in_offset = true` with the
offset, and `convert_input = true` with the members of `s8asym_quant_params`
(bricks/mli_prv_quant_decl.h:45-49). -/
inductive LutIn
  | fx
  | fxOff (offset : Int)
  | sa (offset scale shift : Int)
deriving DecidableEq, Repr

/-- Kind of output: fixed point of width `w` (8 or 16), or SA8 with the given zero point and shift. -/
inductive LutOut
  | fx (w : Nat)
  | sa (offset shift : Int)
deriving DecidableEq, Repr

/-- mli_prv_lut_ref.h:36-41, 87-92, 154-161: the fractional bits the table lookup works with
(`in_frac_bits` is an `int8_t`). -/
def lutFrac (l : Lut) (ci : LutIn) (inFrac : Int) : Int :=
  match ci with
  | .sa _ _ _ => wrap 8 (15 - (7 - l.inFrac))
  | _ => inFrac

/-- mli_prv_lut_ref.h:106-118 with bricks/impl/mli_prv_quant_ref.h:637-646: the value looked up. -/
def lutInput (m : Rnd) (ci : LutIn) (f v : Int) : Int :=
  match ci with
  | .fx => v
  | .fxOff o => subFx 32 v o
  | .sa o sc sh => castFxSame m 32 (wrap 16 (v - o) * sc) (sh - f)

/-- mli_prv_lut_ref.h:94-127: the interpolated table value, before the output conversion.
`1 << shift_in` is undefined for a negative amount; reads outside of the table have no result. -/
def lutInterp (m : Rnd) (l : Lut) (f input : Int) : Option Int :=
  let shift0 := f - l.inFrac
  let pre := minFx (maxFx (shift0 - 15) 0) 15
  let shift := minFx shift0 15
  if shift < 0 then none
  else
    let mask := wrap 16 (2 ^ shift.toNat - 1)
    let x := asrFx 32 input pre
    let idx := boundRangeFx (addFx 32 (asrFx 32 x shift) l.inOffset) 0 (l.length - 2)
    let frac := wrap 16 (cand 32 x mask)
    (l.data.rd idx).bind fun a =>
    (l.data.rd (idx + 1)).bind fun b =>
    let diff := wrap 16 (a - b)
    some (wrap 16 (a - accCast16 m (diff * frac) shift))

/-- mli_prv_lut_ref.h:167-178 with bricks/impl/mli_prv_quant_ref.h:627-634: the value looked up
without interpolation. -/
def lutInput0 (m : Rnd) (l : Lut) (ci : LutIn) (v : Int) : Int :=
  match ci with
  | .fx => v
  | .fxOff o => subFx 32 v o
  | .sa o sc sh => castFx m 64 16 (wrap 16 (v - o) * asrRndFx m 32 sc (sh - (15 - (7 - l.inFrac)))) 0

/-- mli_prv_lut_ref.h:163-183: the table value without interpolation. -/
def lutPlain (l : Lut) (f input : Int) : Option Int :=
  let shift := minFx (f - l.inFrac) 15
  let idx := boundRangeFx (addFx 32 (aslFx 32 input (-shift)) l.inOffset) 0 (l.length - 1)
  l.data.rd idx

/-- mli_prv_lut_ref.h:129-136, 185-192 with bricks/impl/mli_prv_quant_ref.h:648-658. -/
def lutOutput (m : Rnd) (l : Lut) (co : LutOut) (res : Int) : Option Int :=
  match co with
  | .fx w => some (if w = 16 then castFxSame m 16 res 0 else castFx m 16 w res (16 - w))
  | .sa o sh => (ckd 32 (asrRndFx m 32 res (l.outFrac - sh) + o)).map fun t => accCast8 m t 0

/-- mli_prv_lut_ref.h:43-46: whether the lookup interpolates. -/
def lutInterpolates (l : Lut) (ci : LutIn) (inFrac : Int) : Bool :=
  minFx (lutFrac l ci inFrac - l.inFrac) 15 > 0

/-- mli_prv_lut_ref.h:46-72, 75-195: one element. -/
def lutElem (m : Rnd) (l : Lut) (ci : LutIn) (co : LutOut) (inFrac v : Int) : Option Int :=
  let f := lutFrac l ci inFrac
  if lutInterpolates l ci inFrac then (lutInterp m l f (lutInput m ci f v)).bind (lutOutput m l co)
  else (lutPlain l f (lutInput0 m l ci v)).bind (lutOutput m l co)

/-- mli_prv_lut_ref.h:23-73, 208-224 `activation_lut`: `mem` holds the elements of input and output
(which may be the same), the table is elsewhere. -/
def activationLut (m : Rnd) (l : Lut) (ci : LutIn) (co : LutOut) (inFrac : Int) (tin tout : Tensor) (mem : Buf) :
    Option Buf :=
  nest4J (squashGeneric (joint2 tin.dims tout.dims)) (fun a d =>
    (d.rd (tin.base + a 0)).bind fun v =>
    (lutElem m l ci co inFrac v).bind fun r =>
    d.wr (tout.base + a 1) r) mem

/-- private/src/mli_check.cc:378-385 `check_same_shape`. -/
def sameShape (a b : Tensor) : Bool := decide (a.shape = b.shape)

/-- private/src/mli_check.cc:324-330 `check_inner_most_dimension_is_one`. -/
def innerOne (t : Tensor) : Bool :=
  match t.strides.getLast? with
  | none => true
  | some s => s == 1

/-- private/src/mli_check.cc:1711-1732 `mli_chk_basic_activation`, for equal element types and
non-null pointers. -/
def chkBasicActivation (tin tout : Tensor) : Option Status := do
  let s ← checkTensorPrivate tin
  if s ≠ .ok then return s
  let s ← checkTensorPrivate tout
  if s ≠ .ok then return s
  if !sameShape tin tout then return .shapeMismatch
  if !(innerOne tin && innerOne tout) then return .incompatibleTensors
  return .ok

/-- kernels/transform/mli_krn_sigm_fx.cc:28-54 and mli_krn_tanh_fx.cc: the fx8/fx16 kernels
(`w` is the element width); the table is not checked. -/
def krnActivationFx (m : Rnd) (l : Lut) (w : Nat) (inFrac : Int) (tin tout : Tensor) (mem : Buf) :
    Option (Status × Buf) := do
  let s ← chkBasicActivation tin tout
  if s ≠ .ok then return (s, mem)
  let mem' ← activationLut m l .fx (.fx w) inFrac tin tout mem
  return (.ok, mem')

/-- kernels/transform/mli_krn_sigm_fx.cc:56-83 and mli_krn_tanh_fx.cc: the sa8 kernels, with the
fixed output zero point and shift of the function. -/
def krnActivationSa (m : Rnd) (l : Lut) (off scale shift outOff outShift : Int) (tin tout : Tensor) (mem : Buf) :
    Option (Status × Buf) := do
  let s ← chkBasicActivation tin tout
  if s ≠ .ok then return (s, mem)
  let mem' ← activationLut m l (.sa off scale shift) (.sa outOff outShift) 0 tin tout mem
  return (.ok, mem')

/-- private/src/mli_prv_activation_lut.cc:25-66 `sigmoid_lut_data_fx16`. -/
def sigmoidTable : List Int := [
  1, 2, 2, 2, 2, 2, 2, 2, 2, 3, 3, 3, 3, 3, 4, 4,
  4, 4, 5, 5, 5, 6, 6, 6, 7, 7, 8, 8, 9, 9, 10, 10,
  11, 12, 12, 13, 14, 15, 16, 17, 18, 19, 21, 22, 23, 25, 26, 28,
  30, 32, 34, 36, 38, 41, 43, 46, 49, 52, 56, 59, 63, 67, 72, 76,
  81, 86, 92, 98, 104, 111, 118, 125, 133, 142, 151, 161, 171, 182, 194, 206,
  219, 233, 248, 264, 281, 299, 318, 338, 360, 383, 407, 433, 461, 490, 521, 554,
  589, 627, 666, 708, 753, 800, 851, 904, 961, 1021, 1084, 1152, 1223, 1299, 1379, 1464,
  1554, 1649, 1750, 1856, 1969, 2088, 2213, 2346, 2486, 2633, 2789, 2952, 3124, 3306, 3496, 3696,
  3906, 4126, 4357, 4599, 4851, 5115, 5391, 5678, 5978, 6289, 6613, 6949, 7297, 7658, 8031, 8416,
  8813, 9221, 9641, 10072, 10513, 10964, 11424, 11894, 12371, 12856, 13348, 13845, 14347, 14852, 15361, 15872,
  16384, 16896, 17407, 17916, 18421, 18923, 19420, 19912, 20397, 20874, 21344, 21804, 22255, 22696, 23127, 23547,
  23955, 24352, 24737, 25110, 25471, 25819, 26155, 26479, 26790, 27090, 27377, 27653, 27917, 28169, 28411, 28642,
  28862, 29072, 29272, 29462, 29644, 29816, 29979, 30135, 30282, 30422, 30555, 30680, 30799, 30912, 31018, 31119,
  31214, 31304, 31389, 31469, 31545, 31616, 31684, 31747, 31807, 31864, 31917, 31968, 32015, 32060, 32102, 32141,
  32179, 32214, 32247, 32278, 32307, 32335, 32361, 32385, 32408, 32430, 32450, 32469, 32487, 32504, 32520, 32535,
  32549, 32562, 32574, 32586, 32597, 32607, 32617, 32626, 32635, 32643, 32650, 32657, 32664, 32670, 32676, 32682,
  32687, 32692, 32696, 32701, 32705, 32709, 32712, 32716, 32719, 32722, 32725, 32727, 32730, 32732, 32734, 32736,
  32738, 32740, 32742, 32743, 32745, 32746, 32747, 32749, 32750, 32751, 32752, 32753, 32754, 32755, 32756, 32756,
  32757, 32758, 32758, 32759, 32759, 32760, 32760, 32761, 32761, 32762, 32762, 32762, 32763, 32763, 32763, 32764,
  32764, 32764, 32764, 32765, 32765, 32765, 32765, 32765, 32766, 32766, 32766, 32766, 32766, 32766, 32766, 32766]

/-- private/src/mli_prv_activation_lut.cc:68-78 `sigmoid_lut_fx16`. -/
def sigmoidLut : Lut where
  data := Buf.ofList sigmoidTable
  length := 320
  inFrac := 4
  outFrac := 15
  inOffset := 160

/-- private/src/mli_prv_activation_lut.cc:89-133 `tanh_lut_data_fx16`. -/
def tanhTable : List Int := [
  -32767, -32767, -32766, -32766, -32766, -32766, -32766, -32766, -32766, -32766, -32765, -32765, -32765, -32765, -32765, -32764,
  -32764, -32764, -32764, -32763, -32763, -32763, -32762, -32762, -32762, -32761, -32761, -32760, -32760, -32759, -32759, -32758,
  -32758, -32757, -32756, -32755, -32755, -32754, -32753, -32752, -32751, -32750, -32749, -32747, -32746, -32745, -32743, -32741,
  -32740, -32738, -32736, -32734, -32732, -32729, -32727, -32724, -32721, -32718, -32715, -32712, -32708, -32704, -32700, -32696,
  -32691, -32686, -32681, -32676, -32670, -32663, -32657, -32649, -32642, -32634, -32625, -32616, -32606, -32596, -32584, -32573,
  -32560, -32547, -32532, -32517, -32501, -32484, -32466, -32447, -32426, -32404, -32381, -32356, -32329, -32301, -32271, -32240,
  -32206, -32170, -32132, -32091, -32048, -32002, -31953, -31901, -31846, -31788, -31726, -31659, -31589, -31515, -31435, -31351,
  -31262, -31167, -31067, -30960, -30847, -30727, -30600, -30465, -30322, -30170, -30010, -29840, -29660, -29470, -29268, -29055,
  -28830, -28592, -28341, -28076, -27797, -27502, -27191, -26864, -26519, -26157, -25776, -25376, -24956, -24516, -24054, -23571,
  -23066, -22538, -21986, -21411, -20813, -20189, -19542, -18870, -18173, -17452, -16706, -15936, -15143, -14326, -13486, -12625,
  -11743, -10840, -9919, -8980, -8025, -7056, -6073, -5079, -4075, -3063, -2045, -1024, 0, 1024, 2045, 3063,
  4075, 5079, 6073, 7056, 8025, 8980, 9919, 10840, 11743, 12625, 13486, 14326, 15143, 15936, 16706, 17452,
  18173, 18870, 19542, 20189, 20813, 21411, 21986, 22538, 23066, 23571, 24054, 24516, 24956, 25376, 25776, 26157,
  26519, 26864, 27191, 27502, 27797, 28076, 28341, 28592, 28830, 29055, 29268, 29470, 29660, 29840, 30010, 30170,
  30322, 30465, 30600, 30727, 30847, 30960, 31067, 31167, 31262, 31351, 31435, 31515, 31589, 31659, 31726, 31788,
  31846, 31901, 31953, 32002, 32048, 32091, 32132, 32170, 32206, 32240, 32271, 32301, 32329, 32356, 32381, 32404,
  32426, 32447, 32466, 32484, 32501, 32517, 32532, 32547, 32560, 32573, 32584, 32596, 32606, 32616, 32625, 32634,
  32642, 32649, 32657, 32663, 32670, 32676, 32681, 32686, 32691, 32696, 32700, 32704, 32708, 32712, 32715, 32718,
  32721, 32724, 32727, 32729, 32732, 32734, 32736, 32738, 32740, 32741, 32743, 32745, 32746, 32747, 32749, 32750,
  32751, 32752, 32753, 32754, 32755, 32755, 32756, 32757, 32758, 32758, 32759, 32759, 32760, 32760, 32761, 32761,
  32762, 32762, 32762, 32763, 32763, 32763, 32764, 32764, 32764, 32764, 32765, 32765, 32765, 32765, 32765, 32766,
  32766, 32766, 32766, 32766, 32766, 32766, 32766, 32767]

/-- private/src/mli_prv_activation_lut.cc:135-144 `tanh_lut_fx16`. -/
def tanhLut : Lut where
  data := Buf.ofList tanhTable
  length := 344
  inFrac := 5
  outFrac := 15
  inOffset := 172

/-- private/src/mli_prv_activation_lut.cc:155-201 `expneg_lut_data_fx16`. -/
def expnegTable : List Int := [
  0, 0, 1, 1, 1, 1, 1, 1, 1, 1, 1, 1, 1, 1, 1, 1,
  1, 1, 1, 1, 1, 1, 1, 1, 1, 1, 1, 1, 1, 1, 1, 1,
  1, 1, 1, 1, 1, 2, 2, 2, 2, 2, 2, 2, 2, 2, 2, 2,
  2, 2, 2, 2, 2, 3, 3, 3, 3, 3, 3, 3, 3, 3, 3, 3,
  4, 4, 4, 4, 4, 4, 4, 4, 5, 5, 5, 5, 5, 5, 6, 6,
  6, 6, 6, 6, 7, 7, 7, 7, 8, 8, 8, 8, 9, 9, 9, 9,
  10, 10, 10, 11, 11, 11, 12, 12, 12, 13, 13, 14, 14, 15, 15, 16,
  16, 17, 17, 18, 18, 19, 19, 20, 21, 21, 22, 23, 23, 24, 25, 26,
  26, 27, 28, 29, 30, 31, 32, 33, 34, 35, 36, 37, 38, 40, 41, 42,
  43, 45, 46, 48, 49, 51, 52, 54, 56, 58, 59, 61, 63, 65, 67, 69,
  72, 74, 76, 79, 81, 84, 86, 89, 92, 95, 98, 101, 104, 108, 111, 115,
  118, 122, 126, 130, 134, 138, 143, 147, 152, 157, 162, 167, 172, 177, 183, 189,
  195, 201, 207, 214, 221, 228, 235, 242, 250, 258, 266, 275, 283, 292, 302, 311,
  321, 331, 342, 353, 364, 376, 387, 400, 412, 426, 439, 453, 467, 482, 498, 513,
  530, 546, 564, 582, 600, 619, 639, 659, 680, 702, 724, 747, 771, 795, 820, 846,
  873, 901, 930, 959, 990, 1021, 1053, 1087, 1121, 1157, 1194, 1231, 1271, 1311, 1352, 1395,
  1440, 1485, 1533, 1581, 1631, 1683, 1737, 1792, 1849, 1907, 1968, 2030, 2095, 2161, 2230, 2301,
  2374, 2449, 2527, 2607, 2690, 2775, 2863, 2954, 3048, 3145, 3244, 3347, 3454, 3563, 3676, 3793,
  3914, 4038, 4166, 4298, 4435, 4575, 4721, 4871, 5025, 5185, 5349, 5519, 5694, 5875, 6061, 6254,
  6452, 6657, 6869, 7087, 7312, 7544, 7783, 8030, 8285, 8548, 8819, 9099, 9388, 9686, 9994, 10311,
  10638, 10976, 11324, 11684, 12055, 12437, 12832, 13239, 13660, 14093, 14541, 15002, 15479, 15970, 16477, 17000,
  17539, 18096, 18671, 19263, 19875, 20506, 21157, 21828, 22521, 23236, 23974, 24735, 25520, 26330, 27166, 28028,
  28918, 29836, 30783, 31760, 32767, 32767]

/-- private/src/mli_prv_activation_lut.cc:203-212 `expneg_lut_fx16`. -/
def expnegLut : Lut where
  data := Buf.ofList expnegTable
  length := 358
  inFrac := 5
  outFrac := 15
  inOffset := 356

/-- private/src/mli_prv_activation_lut.cc:223-237 `invsqrt_lut_data_fx16`. -/
def invsqrtTable : List Int := [
  23170, 22817, 22479, 22155, 21845, 21548, 21263, 20988, 20724, 20470, 20225, 19988, 19760, 19539, 19326, 19119,
  18919, 18725, 18536, 18354, 18176, 18004, 17837, 17674, 17515, 17361, 17211, 17064, 16921, 16782, 16646, 16514,
  16384, 16257, 16134, 16013, 15895, 15779, 15666, 15555, 15447, 15341, 15237, 15135, 15035, 14937, 14841, 14747,
  14654, 14564, 14474, 14387, 14301, 14217, 14134, 14052, 13972, 13894, 13816, 13740, 13665, 13592, 13519, 13448,
  13377, 13308, 13240, 13173, 13107, 13042, 12978, 12915, 12853, 12791, 12731, 12671, 12612, 12554, 12497, 12441,
  12385, 12330, 12276, 12223, 12170, 12118, 12066, 12015, 11965, 11916, 11867, 11818, 11771, 11723, 11677, 11631,
  11585]

/-- private/src/mli_prv_activation_lut.cc:239-247 `invsqrt_lut_fx16`. -/
def invsqrtLut : Lut where
  data := Buf.ofList invsqrtTable
  length := 97
  inFrac := 0
  outFrac := 17
  inOffset := -32

end Mli
