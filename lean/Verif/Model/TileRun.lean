import Verif.Model.Iter
import Verif.Model.Mem
import Verif.Spec.View
import Verif.Spec.Traverse

/-!
# What the run-time kernels have in common: tile iterators and the caller that moves the tiles

A run-time kernel works on tiles in local buffers.  Its caller asks for the sizes and offsets of the current tiles, copies the input tiles into the
local buffers, calls `Issue`, copies the output tile back and calls `Update`.
-/

namespace Mli.Rt
open Mli Mli.Iter Mli.Spec

/-- include/mli_iterator.hpp:631-936 a `TensorIterator`, without the buffer offset (the kernels here do not use it). -/
structure TIt where
  cfg : List DimCfg
  shape : List Int
  strides : List Int
  st : List DimSt
deriving DecidableEq, Repr

/-- mli_iterator.hpp:656-663, 895-901: constructor and `Reset`. -/
def TIt.start (cfg : List DimCfg) (shape strides : List Int) : TIt := ⟨cfg, shape, strides, reset cfg⟩

/-- mli_iterator.hpp:906-936 `Next()`. -/
def TIt.next (t : TIt) : TIt := { t with st := (Iter.next t.cfg t.st).1 }

/-- mli_iterator.hpp:1017-1037 `GetSubTensor().get_dims()`. -/
def TIt.sizes (t : TIt) : List Int := (subTensor t.shape t.cfg t.st).2

/-- mli_iterator.hpp:1149-1153 `get_pos`: the entries are in the order of the iteration. -/
def TIt.getPos (t : TIt) : List Int := t.st.map (·.pos)

/-- user_tests/test_components/test_tiling.cc:12-39 `strided_copy_with_offsets`: the copy of one tile by the caller; `sp` and `dp` are the positions of
the tile in source and destination.  Generalised: source and destination have their own strides, and an address of the first element. -/
def copyBox (size : List Int) (src : Buf) (sb : Int) (ss sp : List Int) (db : Int) (ds dp : List Int) (dst : Buf) : Option Buf :=
  (rowMajor size).foldlM (fun d x => (src.rd (sb + offset ss (addPos x sp))).bind fun v => d.wr (db + offset ds (addPos x dp)) v) dst

/-- The zero offsets in the local buffer. -/
def zeros (size : List Int) : List Int := size.map fun _ => 0

end Mli.Rt
