import Verif.Model.Mem

/-!
# Model of the asynchronous data-movement resources (`lib/src/move/mli_mov_api.cc`)

The DMA channel pool, the handles and the callback table, for a build without DMA
(`USE_DMA = 0`, the configuration of the reference build: `mli_mov_prepare` performs the copy
and `mli_mov_start` marks it done and calls the callback).  Tensor contents are modelled
separately (`Verif.Model.Mov`).  Accesses of `channel_status[]`/`callbacktable[]` outside
their 16 entries are undefined behaviour and give `none`.
-/

namespace Mli.Dma

/-- mli_mov_decl.h:18 `MAX_DMA_CHAN`. -/
def maxDmaChan : Int := 16

/-- mli_mov_decl.h:20-24 `mli_mov_dma_ch_status_t`. -/
inductive ChSt | notUsed | available | inUse
deriving DecidableEq, Repr

/-- mli_mov_decl.h:26-30 `mli_mov_dma_pool_t`; `status i` is meaningful for `0 ≤ i < 16`. -/
structure Pool where
  base : Int
  size : Int
  status : Int → ChSt

/-- mli_mov_decl.h:31 `MLI_MOV_DMA_POOL_INIT {0, MAX_DMA_CHAN}`: the status array is
zero-initialised, i.e. `NOT_USED`. -/
def Pool.init : Pool := { base := 0, size := maxDmaChan, status := fun _ => .notUsed }

/-- include/api/mli_mov_api.h:27-35 `mli_mov_state` (the states reachable without DMA). -/
inductive HSt | invalid | opened | prepared | done
deriving DecidableEq, Repr

/-- include/api/mli_mov_api.h:37-41 `mli_mov_handle_t`. -/
structure Handle where
  ch : Int
  num : Int
  state : HSt
deriving DecidableEq, Repr

/-- Read of `dma_pool.channel_status[i]`. -/
def Pool.rd (p : Pool) (i : Int) : Option ChSt :=
  if 0 ≤ i ∧ i < maxDmaChan then some (p.status i) else none

/-- Write of `dma_pool.channel_status[i]`. -/
def Pool.wr (p : Pool) (i : Int) (s : ChSt) : Option Pool :=
  if 0 ≤ i ∧ i < maxDmaChan then some { p with status := fun j => if j = i then s else p.status j } else none

/-- The loop `for (k = 0; k < n; k++) channel_status[ch + k] = s`
(mli_mov_api.cc:370-372, 395-397, 414-416). -/
def Pool.fill (p : Pool) (ch : Int) (n : Int) (s : ChSt) : Option Pool :=
  forRange n.toNat (fun k p => p.wr (ch + k) s) p

/-- mli_mov_api.cc:367-375 `mli_mov_set_num_dma_ch`. -/
def setNumDmaCh (p : Pool) (off n : Int) : Option Pool :=
  Pool.fill { p with base := off, size := n } off n .available

/-- mli_mov_api.cc:388-390, the inner loop of the search (not short-circuited). -/
def allAvailable (p : Pool) (i n : Int) : Option Bool :=
  forRange n.toNat (fun k found => do return found && ((← p.rd (i + k)) == .available)) true

/-- mli_mov_api.cc:386-401: the search over `i = base .. base+size-1`, `fuel` counts the
remaining iterations. -/
def search (p : Pool) (n : Int) : (fuel : Nat) → (i : Int) → Option (Option Int)
  | 0, _ => some none
  | fuel + 1, i => do
    let found ← allAvailable p i n
    if found then return (some i) else search p n fuel (i + 1)

/-- mli_mov_api.cc:382-404 `mli_mov_acquire_handle`; `none` as second component is
`MLI_STATUS_NOT_ENGH_MEM`. -/
def acquire (p : Pool) (n : Int) : Option (Pool × Option Handle) := do
  match ← search p n p.size.toNat p.base with
  | some i =>
    let p' ← p.fill i n .inUse
    return (p', some { ch := i, num := n, state := .opened })
  | none => return (p, none)

/-- mli_mov_api.cc:411-421 `mli_mov_release_handle`. -/
def release (p : Pool) (h : Handle) : Option (Pool × Handle) := do
  let p' ← p.fill h.ch h.num .available
  return (p', { ch := 0, num := 0, state := .invalid })

/-- A registered callback: function and cookie (mli_mov_decl.h:33-36). -/
abbrev Cb := Nat × Int

/-- The state a user program can observe: the pool, the callback table and the contents of its
handle variables (named by numbers; all zero-initialised). -/
structure Sys where
  pool : Pool
  cbs : Int → Option Cb
  handles : Nat → Handle

/-- Program start. -/
def Sys.init : Sys :=
  { pool := Pool.init, cbs := fun _ => none, handles := fun _ => { ch := 0, num := 0, state := .invalid } }

/-- API calls; `id` names the handle variable passed to the call. -/
inductive Op
  | config (off n : Int)
  | acquire (id : Nat) (n : Int)
  | release (id : Nat)
  | register (id : Nat) (cb : Cb)
  | start (id : Nat)
  | sync
deriving DecidableEq, Repr

def Sys.setHandle (s : Sys) (id : Nat) (h : Handle) : Sys :=
  { s with handles := fun j => if j = id then h else s.handles j }

/-- mli_mov_api.cc:284-293 `mli_mov_registercallback` (assertion on `dma_ch` compiled out). -/
def register (s : Sys) (ch : Int) (cb : Cb) : Option Sys :=
  if 0 ≤ ch ∧ ch < maxDmaChan then some { s with cbs := fun j => if j = ch then some cb else s.cbs j } else none

/-- mli_mov_api.cc:303-321 `mli_mov_start`, without DMA: the callbacks invoked. -/
def startCalls (s : Sys) (ch : Int) : Option (List Cb) :=
  if 0 ≤ ch ∧ ch < maxDmaChan then some (match s.cbs ch with | some c => [c] | none => []) else none

/-- One API call: the new state and the callbacks invoked during the call. -/
def exec (s : Sys) : Op → Option (Sys × List Cb)
  | .config off n => do
    let p ← setNumDmaCh s.pool off n
    return ({ s with pool := p }, [])
  | .acquire id n => do
    let (p, h) ← acquire s.pool n
    match h with
    | some h => return (({ s with pool := p }).setHandle id h, [])
    | none => return ({ s with pool := p }, [])
  | .release id => do
    let (p, h) ← release s.pool (s.handles id)
    return (({ s with pool := p }).setHandle id h, [])
  | .register id cb => do
    let s' ← register s (s.handles id).ch cb
    return (s', [])
  | .start id => do
    let calls ← startCalls s (s.handles id).ch
    return (s.setHandle id { s.handles id with state := .done }, calls)
  | .sync => do
    -- mli_mov_api.cc:53-80 `mli_mov_tensor_sync` with `num_dma_channels = 0` and a successful prepare
    let (p, h) ← acquire s.pool 0
    match h with
    | none => return ({ s with pool := p }, [])
    | some h =>
      let calls ← startCalls s h.ch
      let (p', _) ← release p h
      return ({ s with pool := p' }, calls)

/-- A history of calls; the callbacks invoked are collected in order. -/
def run : Sys → List Op → Option (Sys × List Cb)
  | s, [] => some (s, [])
  | s, op :: ops => do
    let (s', l) ← exec s op
    let (s'', l') ← run s' ops
    return (s'', l ++ l')

end Mli.Dma
