import Verif.Model.BufSize
import Verif.Lemmas.Tiles
import Mathlib.Tactic.LinearCombination

/-! # C76: the reported size of a buffer is the room its tensor takes -/

namespace Mli.Iter

open Mli Mli.Spec Mli.Cs

/-! ## `GetBufferSize` -/

theorem bufSize_fold : ∀ shape strides : List Int,
    ∃ k : Int, (shape.zip strides).foldr (fun p acc => u32 (acc + u32 (p.2 * u32 (p.1 - 1)))) 0 =
      extent shape strides - 1 + 2 ^ 32 * k := by
  intro shape
  induction shape with
  | nil => intro _; exact ⟨0, by simp [extent]⟩
  | cons n ns ih =>
    intro strides
    cases strides with
    | nil => exact ⟨0, by simp [extent]⟩
    | cons s ss =>
      obtain ⟨k, hk⟩ := ih ss
      simp only [List.zip_cons_cons, List.foldr_cons, extent]
      rw [hk, u32_mul_right, u32_add_right]
      refine ⟨k - (extent ns ss - 1 + 2 ^ 32 * k + s * (n - 1)) / 2 ^ 32, ?_⟩
      have h := Int.emod_add_mul_ediv (extent ns ss - 1 + 2 ^ 32 * k + s * (n - 1)) (2 ^ 32)
      unfold u32
      linear_combination h

theorem bufSize_u32 (shape strides : List Int) : bufSize shape strides = u32 (extent shape strides) := by
  obtain ⟨k, hk⟩ := bufSize_fold shape strides
  unfold bufSize
  rw [hk]
  exact u32_congr k (by ring)

/-- The last multi-index of a shape. -/
def lastIdx (shape : List Int) : List Int := shape.map (· - 1)

theorem lastIdx_inShape : ∀ shape : List Int, (∀ n ∈ shape, 1 ≤ n) → InShape shape (lastIdx shape) := by
  intro shape
  induction shape with
  | nil => intro _; trivial
  | cons n ns ih =>
    intro h
    have := h n (by simp)
    exact ⟨⟨by show 0 ≤ n - 1; omega, by show n - 1 < n; omega⟩, ih fun m hm => h m (by simp [hm])⟩

theorem offset_lastIdx : ∀ shape strides : List Int, shape.length = strides.length →
    offset strides (lastIdx shape) = extent shape strides - 1 := by
  intro shape
  induction shape with
  | nil => intro ss h; cases ss with
    | nil => rfl
    | cons => simp at h
  | cons n ns ih =>
    intro ss h
    cases ss with
    | nil => simp at h
    | cons s ss =>
      have := ih ss (by simpa using h)
      simp only [lastIdx, List.map_cons, offset, extent] at *
      omega

theorem offset_le_extent : ∀ shape strides is : List Int, (∀ s ∈ strides, 0 ≤ s) → InShape shape is →
    0 ≤ offset strides is ∧ offset strides is ≤ extent shape strides - 1 := by
  intro shape
  induction shape with
  | nil => intro ss is _ h; cases is with
    | nil => cases ss <;> simp [offset, extent]
    | cons => exact h.elim
  | cons n ns ih =>
    intro ss is hs h
    cases is with
    | nil => exact h.elim
    | cons i is =>
      cases ss with
      | nil => simp [offset, extent]
      | cons s ss =>
        obtain ⟨⟨h0, h1⟩, h2⟩ := h
        have := ih ss is (fun t ht => hs t (by simp [ht])) h2
        have hs0 := hs s (by simp)
        simp only [offset, extent]
        have : 0 ≤ i * s := Int.mul_nonneg h0 hs0
        have : i * s ≤ (n - 1) * s := Int.mul_le_mul_of_nonneg_right (by omega) hs0
        omega

/-- C76: the reported size is the least number of elements that holds the tensor: every element lies below it, and no
smaller buffer holds them all. -/
theorem c76_buffer_size_partial (shape strides : List Int) (hl : shape.length = strides.length) (hn : ∀ n ∈ shape, 1 ≤ n)
    (hs : ∀ s ∈ strides, 0 ≤ s) (hb : ∀ x, InShape shape x → offset strides x < 2 ^ 32 - 1) :
    (∀ x, InShape shape x → 0 ≤ offset strides x ∧ offset strides x < bufSize shape strides) ∧
    (∀ size, (∀ x, InShape shape x → offset strides x < size) → bufSize shape strides ≤ size) := by
  have hlast := lastIdx_inShape shape hn
  have hoff := offset_lastIdx shape strides hl
  have h0 := (offset_le_extent shape strides _ hs hlast).1
  have h1 := hb _ hlast
  have he : bufSize shape strides = extent shape strides := by
    rw [bufSize_u32, u32_id ⟨by omega, by omega⟩]
  rw [he]
  refine ⟨fun x hx => ?_, fun size h => ?_⟩
  · have := offset_le_extent shape strides x hs hx
    omega
  · have := h _ hlast
    omega

example : bufSize [2, 3, 4] [40, 8, 2] = 63 := by decide

example : ([2, 3, 4] : List Int).length = ([40, 8, 2] : List Int).length ∧ (∀ n ∈ ([2, 3, 4] : List Int), 1 ≤ n) ∧
    (∀ s ∈ ([40, 8, 2] : List Int), 0 ≤ s) ∧ ∀ x, InShape [2, 3, 4] x → offset [40, 8, 2] x < 2 ^ 32 - 1 := by
  refine ⟨rfl, by decide, by decide, fun x hx => ?_⟩
  have := (offset_le_extent [2, 3, 4] [40, 8, 2] x (by decide) hx).2
  have : extent [2, 3, 4] [40, 8, 2] = 63 := by decide
  omega

theorem bufSizeLoop_eq : ∀ shape : List Int, ∃ k l : Int,
    (bufSizeLoop shape).1 = prod shape - 1 + 2 ^ 32 * k ∧ (bufSizeLoop shape).2 = prod shape + 2 ^ 32 * l := by
  intro shape
  induction shape with
  | nil => exact ⟨0, 0, by simp [bufSizeLoop, prod], by simp [bufSizeLoop, prod]⟩
  | cons n ns ih =>
    obtain ⟨k, l, hk, hl⟩ := ih
    simp only [bufSizeLoop, prod]
    rw [hk, hl, u32_mul_right, u32_add_right]
    obtain ⟨m, hm⟩ := wrap_decomp ((prod ns + 2 ^ 32 * l) * n)
    have h := Int.emod_add_mul_ediv (prod ns - 1 + 2 ^ 32 * k + (prod ns + 2 ^ 32 * l) * (n - 1)) (2 ^ 32)
    refine ⟨k + l * (n - 1) - (prod ns - 1 + 2 ^ 32 * k + (prod ns + 2 ^ 32 * l) * (n - 1)) / 2 ^ 32, l * n + m, ?_, ?_⟩
    · unfold u32; linear_combination h
    · rw [hm]; ring

theorem bufSizeContig_eq (shape : List Int) : bufSizeContig shape = u32 (prod shape) := by
  obtain ⟨k, l, hk, -⟩ := bufSizeLoop_eq shape
  unfold bufSizeContig
  rw [hk]
  exact u32_congr k (by ring)

theorem totalElems_eq (shape : List Int) : totalElems shape = u32 (prod shape) ∨ shape = [] := by
  have h : ∀ (l : List Int) (a : Int), u32 (l.foldl (fun acc n => u32 (acc * n)) a) = u32 (a * prod l) := by
    intro l
    induction l with
    | nil => intro a; simp [prod]
    | cons n ns ih =>
      intro a
      rw [List.foldl_cons, ih, u32_mul_left, prod]
      congr 1; ring
  cases shape with
  | nil => exact Or.inr rfl
  | cons n ns =>
    left
    have h2 : ∀ (l : List Int) (a : Int), u32 a = a → u32 (l.foldl (fun acc n => u32 (acc * n)) a) = l.foldl (fun acc n => u32 (acc * n)) a := by
      intro l
      induction l with
      | nil => intro a ha; exact ha
      | cons n ns ih => intro a _; exact ih _ (u32_u32 _)
    unfold totalElems
    rw [← h2 _ _ (by rfl), h, one_mul]

/-- C76, tensors without gaps: the size reported for a shape, the number of elements of a tensor of that shape and the size
reported for the strides of the constructor for contiguous data all are the product of the dimensions. -/
theorem c76_contiguous (shape : List Int) (hn : ∀ n ∈ shape, 1 ≤ n) (hb : prod shape < 2 ^ 31) :
    bufSizeContig shape = prod shape ∧ totalElems shape = prod shape ∧ bufSize shape (contigStrides shape).2 = prod shape := by
  have hp := prod_pos hn
  have hu : u32 (prod shape) = prod shape := u32_id ⟨by omega, by omega⟩
  refine ⟨by rw [bufSizeContig_eq, hu], ?_, ?_⟩
  · rcases totalElems_eq shape with h | h
    · rw [h, hu]
    · subst h; rfl
  · rw [bufSize_u32, contigStrides_eq shape hn hb]
    have : ∀ ns : List Int, extent ns (cstr ns) = prod ns := by
      intro ns
      induction ns with
      | nil => rfl
      | cons n ns ih => simp only [cstr, extent, prod, ih]; ring
    rw [this, hu]

example : bufSizeContig [2, 3, 4] = 24 ∧ totalElems [2, 3, 4] = 24 ∧ bufSize [2, 3, 4] [12, 4, 1] = 24 := by decide

/-- The code violates C76 for tensors that span more than 2^32 elements: the reported size is the remainder (a tensor of
2x2 elements with a row stride of 2^31 - 1 is still right, three rows report 0 elements). -/
theorem c76_wrap_violated : bufSize [3, 2] [2 ^ 31 - 1, 1] = 0 ∧ InShape [3, 2] [2, 1] ∧
    offset [2 ^ 31 - 1, 1] [2, 1] = 2 ^ 32 - 1 := by decide

/-- For a tensor without elements (a dimension of 0) and for negative strides the reported size is close to 2^32. -/
theorem c76_empty_violated : bufSize [0, 4] [8, 1] = 2 ^ 32 - 4 ∧ bufSize [4] [-1] = 2 ^ 32 - 2 := by decide

/-! ## Buffers for tiles -/

theorem packStrides_eq : ∀ (ns ss : List Int), ns.length = ss.length → (∀ n ∈ ns, 1 ≤ n) → prod ns < 2 ^ 31 →
    packStrides ns ss = (prod ns, cstr ns) := by
  intro ns
  induction ns with
  | nil => intro ss h _ _; cases ss with
    | nil => rfl
    | cons => simp at h
  | cons n ns ih =>
    intro ss h hn hb
    cases ss with
    | nil => simp at h
    | cons s ss =>
      have h1 : 1 ≤ n := hn n (by simp)
      have h2 : 1 ≤ prod ns := prod_pos (fun m hm => hn m (by simp [hm]))
      have h3 : prod ns ≤ n * prod ns := by nlinarith
      have hpr : prod (n :: ns) = n * prod ns := rfl
      have hi := ih ss (by simpa using h) (fun m hm => hn m (by simp [hm])) (by omega)
      simp only [packStrides, hi, cstr]
      have hw : wrap 32 (prod ns) = prod ns := by
        have := wrap_u32 (x := prod ns) ⟨by omega, by omega⟩
        rwa [u32_id ⟨by omega, by omega⟩] at this
      rw [if_neg (by omega), mul_comm (prod ns) n, u32_id ⟨by omega, by omega⟩, hw, hpr]

/-- Configuration that goes through the dimensions in their own order with no tile larger than the regular one. -/
structure OwnOrder (cfg : List DimCfg) (shape : List Int) : Prop where
  len : cfg.length = shape.length
  order : cfg.map (·.order) = (List.range shape.length).map fun d : Nat => (d : Int)
  sizes : ∀ c ∈ cfg, 1 ≤ c.size ∧ c.firstSize ≤ c.size ∧ c.lastSize ≤ c.size

theorem OwnOrder.at {cfg : List DimCfg} {shape : List Int} (h : OwnOrder cfg shape) {d : Nat} (hd : d < cfg.length) :
    cfg[d].order = d := by
  have := h.len
  have e : (cfg.map (·.order))[d]? = some (d : Int) := by
    rw [h.order, List.getElem?_map, List.getElem?_range (by omega)]; rfl
  rw [List.getElem?_map, List.getElem?_eq_getElem hd] at e
  simpa using e

theorem nextN_length (cfg : List DimCfg) : ∀ n, (nextN cfg n).1.length = cfg.length := by
  have hstep : ∀ (cs : List DimCfg) (ss : List DimSt), ss.length = cs.length → (next cs ss).1.length = cs.length := by
    intro cs
    induction cs with
    | nil => intro ss h; cases ss with
      | nil => rfl
      | cons => simp at h
    | cons c cs ih =>
      intro ss h
      cases ss with
      | nil => simp at h
      | cons s ss =>
        have hl : ss.length = cs.length := by simpa using h
        simp only [next]
        split
        · simp [ih ss hl]
        · split <;> simp [hl]
  intro n
  induction n with
  | zero => simp [nextN, reset]
  | succ n ih => exact hstep _ _ ih

theorem tileSize_le_size (n : Int) (c : DimCfg) (s : DimSt) (h : c.firstSize ≤ c.size ∧ c.lastSize ≤ c.size) :
    tileSize n c s ≤ c.size := by
  unfold tileSize
  split
  · exact h.2
  · split
    · exact h.1
    · exact Int.min_le_right _ _

theorem OwnOrder.tile {cfg : List DimCfg} {shape : List Int} (h : OwnOrder cfg shape) (n : Nat) :
    (subTensor shape cfg (nextN cfg n).1).2.length = shape.length ∧
    ∀ d, d < shape.length → (subTensor shape cfg (nextN cfg n).1).2.getD d 0 ≤ (cfg.map (·.size)).getD d 0 := by
  have hl := h.len
  have hnd : (cfg.map (·.order)).Nodup := by
    rw [h.order]; exact List.Nodup.map (fun a b hab => by exact_mod_cast hab) List.nodup_range
  have hb : ∀ c ∈ cfg, 0 ≤ c.order ∧ c.order < shape.length := by
    intro c hc
    obtain ⟨i, hi, rfl⟩ := List.getElem_of_mem hc
    rw [h.at hi]
    omega
  obtain ⟨h1, h2, h3⟩ := subTensor_spec shape cfg (nextN cfg n).1 (nextN_length cfg n).symm hnd hb
  refine ⟨h2, fun d hd => ?_⟩
  have hd1 : d < cfg.length := by omega
  have hd2 : d < (nextN cfg n).1.length := by rw [nextN_length]; omega
  have hp : (cfg[d], (nextN cfg n).1[d]) ∈ cfg.zip (nextN cfg n).1 := by
    rw [← List.getElem_zip (h := by simp; omega)]
    exact List.getElem_mem _
  have := (h3 _ hp).2
  simp only [h.at hd1, Int.toNat_natCast] at this
  have hg : (cfg.map (·.size)).getD d 0 = cfg[d].size := by
    rw [List.getD_eq_getElem?_getD, List.getElem?_map, List.getElem?_eq_getElem hd1]; rfl
  rw [this, hg]
  exact tileSize_le_size _ _ _ (h.sizes _ (List.getElem_mem hd1)).2

/-- C76, buffers for tiles: a buffer of the reported size holds every tile of the iteration with the strides the iterator
gives to its tensor, each element of a tile in its own place. -/
theorem c76_tile_buffer_partial (tilesNum : Int) (ht : tilesNum ≠ 0) (cfg : List DimCfg) (shape strides : List Int)
    (h : OwnOrder cfg shape) (hl : strides.length = shape.length) (hb : prod (cfg.map (·.size)) < 2 ^ 31) (n : Nat) :
    let sizes := (subTensor shape cfg (nextN cfg n).1).2
    let st := updStrides tilesNum cfg strides
    (∀ x, InShape sizes x → 0 ≤ offset st x ∧ offset st x < tiledMaxSize tilesNum cfg shape st) ∧
    (∀ x y, InShape sizes x → InShape sizes y → offset st x = offset st y → x = y) := by
  intro sizes st
  have hn : ∀ m ∈ cfg.map (·.size), 1 ≤ m := by
    intro m hm
    obtain ⟨c, hc, rfl⟩ := List.mem_map.mp hm
    exact (h.sizes c hc).1
  have hperm : (cfg.map fun c => (cfg.map (·.size)).getD c.order.toNat 0) = cfg.map (·.size) := by
    apply List.ext_getElem
    · simp
    · intro i h1 h2
      have hi : i < cfg.length := by simpa using h1
      simp only [List.getElem_map, h.at hi, Int.toNat_natCast, List.getD_eq_getElem?_getD]
      rw [List.getElem?_eq_getElem (by simpa using hi)]
      simp
  have hst : st = cstr (cfg.map (·.size)) := by
    show updStrides tilesNum cfg strides = _
    unfold updStrides
    rw [if_pos ht, hperm, packStrides_eq _ _ (by simp [h.len, hl]) hn hb]
  have hmax : (cfg.map fun c => max c.firstSize c.size) = cfg.map (·.size) := by
    apply List.map_congr_left
    intro c hc
    exact max_eq_right (h.sizes c hc).2.1
  have hsize : tiledMaxSize tilesNum cfg shape st = prod (cfg.map (·.size)) := by
    unfold tiledMaxSize
    rw [if_neg ht, hmax, hst]
    have := (c76_contiguous _ hn hb).2.2
    rwa [contigStrides_eq _ hn hb] at this
  obtain ⟨hlen, hle⟩ := h.tile n
  have hin : ∀ x, InShape sizes x → InShape (cfg.map (·.size)) x := fun x hx =>
    Rt.inShape_mono (by simp [hlen, h.len]) (fun d hd => hle d (by simp [h.len] at hd; exact hd)) hx
  rw [hsize, hst]
  exact ⟨fun x hx => contig_offset_range _ x (hin x hx), fun x y hx hy he => contig_offset_inj _ x y (hin x hx) (hin y hy) he⟩

example : OwnOrder (tileCfg [5, 6, 7] [2, 6, 3] [0, 1, 2] 0) [5, 6, 7] :=
  ⟨by decide, by decide, by decide⟩

/-- The code violates C76 for an iteration order other than the natural one: sizes are read by iteration level and strides
written by tensor dimension.  A 4x6x8 tensor in tiles of 2x3x4, iterated in the order 1, 2, 0: all strides get
tile sizes of other dimensions, and two elements of one tile share a place. -/
theorem c76_order_violated :
    let cfg := tileCfg [4, 6, 8] [2, 3, 4] [1, 2, 0] 0
    let st := updStrides 1 cfg [48, 8, 1]
    let sizes := (subTensor [4, 6, 8] cfg (nextN cfg 0).1).2
    sizes = [2, 3, 4] ∧ InShape sizes [0, 0, 3] ∧ InShape sizes [0, 1, 0] ∧ offset st [0, 0, 3] = offset st [0, 1, 0] := by
  decide

/-- The code violates C76 for the input tiles of a strided kernel: the last tile reaches to the end of the tensor and can be
larger than the regular one, which alone is looked at.  Input of 6 rows of 2, kernel 1, stride 3, one output row per
tile: the last tile has 3 rows, the reported buffer 1. -/
theorem c76_last_tile_violated :
    let cfg := kernelCfg (tileCfg [2, 2] [1, 2] [0, 1] 0) [6, 2] (fun _ => 1) (fun d => if d = 0 then 3 else 1) fun _ => 0
    let st := updStrides 1 cfg [2, 1]
    tiledMaxSize 1 cfg [6, 2] st = 2 ∧ (subTensor [6, 2] cfg (nextN cfg 1).1).2 = [3, 2] ∧ offset st [2, 1] = 5 := by
  decide

end Mli.Iter
