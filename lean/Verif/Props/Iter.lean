import Verif.Model.Iter
import Verif.Lemmas.Contig
import Verif.Props.Mov

/-! # C21 - C25: tiling iterators -/

namespace Mli.Iter

open Spec

/-! ## C22: the odometer -/

/-- Position of tile `j` along one dimension. -/
def posOf (c : DimCfg) (j : Int) : Int := if j = 0 then 0 else c.firstInc + (j - 1) * c.inc

/-- State after `n` calls. -/
def stateAt : List DimCfg → Int → List DimSt
  | [], _ => []
  | c :: cs, n => { pos := posOf c (n % c.count), idx := n % c.count } :: stateAt cs (n / c.count)

theorem totalCount_eq (cfg : List DimCfg) : totalCount cfg = prod (cfg.map (·.count)) := by
  have h : ∀ (l : List Int) (a : Int), l.foldl (· * ·) a = a * prod l := by
    intro l
    induction l with
    | nil => intro a; simp [prod]
    | cons x xs ih => intro a; simp only [List.foldl_cons, prod]; rw [ih]; ring
  unfold totalCount
  rw [h]; ring

theorem prodCount_pos {cfg : List DimCfg} (h : ∀ c ∈ cfg, 1 ≤ c.count) : 1 ≤ prod (cfg.map (·.count)) := by
  apply prod_pos
  intro n hn
  rw [List.mem_map] at hn
  obtain ⟨c, hc, rfl⟩ := hn
  exact h c hc

theorem mul_emod_zero {c T m : Int} (hc : 1 ≤ c) : (c * m) % (c * T) = 0 ↔ m % T = 0 := by
  rw [Int.mul_emod_mul_of_pos _ _ (by omega)]
  constructor
  · intro h
    rcases Int.mul_eq_zero.mp h with h | h
    · omega
    · exact h
  · intro h; rw [h]; ring

theorem next_stateAt : ∀ (cfg : List DimCfg), (∀ c ∈ cfg, 1 ≤ c.count) → ∀ n : Int, 0 ≤ n →
    next cfg (stateAt cfg n) =
      (stateAt cfg (n + 1), decide (cfg ≠ [] ∧ (n + 1) % prod (cfg.map (·.count)) = 0)) := by
  intro cfg
  induction cfg with
  | nil => intro _ n _; simp [next, stateAt]
  | cons c cs ih =>
    intro h n hn
    have hc := h c (List.mem_cons_self ..)
    have hcs := fun d hd => h d (List.mem_cons_of_mem _ hd)
    have hq0 := Int.emod_nonneg n (show c.count ≠ 0 by omega)
    have hq1 := Int.emod_lt_of_pos n (show 0 < c.count by omega)
    have hd := Int.emod_add_mul_ediv n c.count
    have hm : 0 ≤ n / c.count := Int.ediv_nonneg hn (by omega)
    have hT := prodCount_pos hcs
    simp only [stateAt, next, List.map_cons, prod, ne_eq, reduceCtorEq, not_false_eq_true, true_and]
    by_cases hl : n % c.count = c.count - 1
    · have e : n + 1 = c.count * (n / c.count + 1) := by
        rw [Int.mul_add, Int.mul_one]; omega
      have e1 : (n + 1) % c.count = 0 := by rw [e]; exact Int.mul_emod_right _ _
      have e2 : (n + 1) / c.count = n / c.count + 1 := by
        rw [e]; exact Int.mul_ediv_cancel_left _ (by omega)
      rw [if_pos hl, ih hcs _ hm, e1, e2]
      simp only [posOf, if_true, Prod.mk.injEq, true_and]
      rw [e]
      cases cs with
      | nil => simp [prod]
      | cons d ds =>
        simp only [List.isEmpty_cons, Bool.false_or, ne_eq, reduceCtorEq, not_false_eq_true, true_and]
        apply decide_eq_decide.mpr
        rw [mul_emod_zero hc]
    · have e : n + 1 = c.count * (n / c.count) + (n % c.count + 1) := by omega
      have e1 : (n + 1) % c.count = n % c.count + 1 := by
        rw [e, Int.mul_add_emod_self_left]
        exact Int.emod_eq_of_lt (by omega) (by omega)
      have e2 : (n + 1) / c.count = n / c.count := by
        rw [e, Int.add_comm, Int.add_mul_ediv_left _ _ (by omega), Int.ediv_eq_zero_of_lt (by omega) (by omega)]
        omega
      have e3 : ¬ (n + 1) % (c.count * prod (cs.map (·.count))) = 0 := by
        intro h0
        have : (n + 1) % c.count = 0 := Int.emod_eq_zero_of_dvd
          (Int.dvd_trans (Int.dvd_mul_right _ _) (Int.dvd_of_emod_eq_zero h0))
        omega
      rw [if_neg hl, decide_eq_false e3, e1, e2]
      by_cases h0 : n % c.count = 0
      · rw [if_pos h0, h0]
        simp [posOf]
      · rw [if_neg h0]
        simp only [posOf, if_neg h0, if_neg (show ¬ (n % c.count + 1 = 0) by omega), Prod.mk.injEq, and_true,
          List.cons.injEq, DimSt.mk.injEq]
        ring

theorem stateAt_zero (cfg : List DimCfg) : stateAt cfg 0 = reset cfg := by
  induction cfg with
  | nil => rfl
  | cons c cs ih => simp only [stateAt, Int.zero_emod, Int.zero_ediv, ih, posOf, if_true, reset, List.map_cons]

theorem nextN_eq {cfg : List DimCfg} (h : ∀ c ∈ cfg, 1 ≤ c.count) (n : Nat) :
    (nextN cfg n).1 = stateAt cfg n := by
  induction n with
  | zero => exact (stateAt_zero cfg).symm
  | succ n ih =>
    simp only [nextN]
    rw [ih, next_stateAt cfg h n (by omega)]
    simp

/-- Number of the tile with indices `js`. -/
def encode : List Int → List Int → Int
  | c :: cs, j :: js => j + c * encode cs js
  | _, _ => 0

theorem stateAt_inShape : ∀ (cfg : List DimCfg), (∀ c ∈ cfg, 1 ≤ c.count) → ∀ n : Int,
    InShape (cfg.map (·.count)) ((stateAt cfg n).map (·.idx)) := by
  intro cfg
  induction cfg with
  | nil => intro _ _; trivial
  | cons c cs ih =>
    intro h n
    have hc := h c (List.mem_cons_self ..)
    exact ⟨⟨Int.emod_nonneg n (by omega), Int.emod_lt_of_pos n (by omega)⟩,
      ih (fun d hd => h d (List.mem_cons_of_mem _ hd)) _⟩

theorem encode_stateAt : ∀ (cfg : List DimCfg), (∀ c ∈ cfg, 1 ≤ c.count) → ∀ n : Int,
    encode (cfg.map (·.count)) ((stateAt cfg n).map (·.idx)) = n % prod (cfg.map (·.count)) := by
  intro cfg
  induction cfg with
  | nil => intro _ n; simp [encode, stateAt, prod]
  | cons c cs ih =>
    intro h n
    have hc := h c (List.mem_cons_self ..)
    have hcs := fun d hd => h d (List.mem_cons_of_mem _ hd)
    have hT := prodCount_pos hcs
    simp only [stateAt, List.map_cons, encode, prod]
    rw [ih hcs]
    generalize hTe : prod (cs.map (·.count)) = T at hT ⊢
    generalize hce : c.count = k at hc ⊢
    have hq0 := Int.emod_nonneg n (show k ≠ 0 by omega)
    have hq1 := Int.emod_lt_of_pos n (show 0 < k by omega)
    have hd := Int.emod_add_mul_ediv n k
    have hr0 := Int.emod_nonneg (n / k) (show T ≠ 0 by omega)
    have hr1 := Int.emod_lt_of_pos (n / k) (show 0 < T by omega)
    have hd2 := Int.emod_add_mul_ediv (n / k) T
    have e : n = (n % k + k * (n / k % T)) + (k * T) * (n / k / T) := by
      calc n = n % k + k * (n / k) := hd.symm
        _ = n % k + k * (n / k % T + T * (n / k / T)) := by rw [hd2]
        _ = _ := by ring
    conv_rhs => rw [e]
    rw [Int.add_mul_emod_self_left]
    exact (Int.emod_eq_of_lt (by nlinarith) (by nlinarith)).symm

theorem encode_range : ∀ (ns js : List Int), InShape ns js → 0 ≤ encode ns js ∧ encode ns js < prod ns := by
  intro ns
  induction ns with
  | nil => intro js h; cases js <;> simp_all [InShape, encode, prod]
  | cons n ns ih =>
    intro js h
    cases js with
    | nil => exact absurd h id
    | cons j js =>
      obtain ⟨⟨h0, h1⟩, h2⟩ := h
      obtain ⟨a, b⟩ := ih js h2
      simp only [encode, prod]
      constructor
      · have := Int.mul_nonneg (show 0 ≤ n by omega) a; omega
      · nlinarith

theorem stateAt_encode : ∀ (cfg : List DimCfg) (js : List Int), InShape (cfg.map (·.count)) js →
    (stateAt cfg (encode (cfg.map (·.count)) js)).map (·.idx) = js := by
  intro cfg
  induction cfg with
  | nil => intro js h; cases js with
    | nil => rfl
    | cons j js => exact absurd h id
  | cons c cs ih =>
    intro js h
    cases js with
    | nil => exact absurd h id
    | cons j js =>
      obtain ⟨⟨h0, h1⟩, h2⟩ := h
      have h1 : j < c.count := h1
      simp only [List.map_cons, encode, stateAt]
      have e1 : (j + c.count * encode (cs.map (·.count)) js) % c.count = j := by
        rw [Int.add_mul_emod_self_left]; exact Int.emod_eq_of_lt h0 h1
      have e2 : (j + c.count * encode (cs.map (·.count)) js) / c.count = encode (cs.map (·.count)) js := by
        rw [Int.add_mul_ediv_left _ _ (by omega), Int.ediv_eq_zero_of_lt h0 h1]; omega
      rw [e1, e2, ih js h2]

theorem stateAt_period (cfg : List DimCfg) (h : ∀ c ∈ cfg, 1 ≤ c.count) (n k : Int) :
    stateAt cfg (n + k * prod (cfg.map (·.count))) = stateAt cfg n := by
  induction cfg generalizing n k with
  | nil => rfl
  | cons c cs ih =>
    have hc := h c (List.mem_cons_self ..)
    have hcs := fun d hd => h d (List.mem_cons_of_mem _ hd)
    simp only [List.map_cons, prod, stateAt]
    have e : n + k * (c.count * prod (cs.map (·.count))) = n + c.count * (k * prod (cs.map (·.count))) := by ring
    rw [e, Int.add_mul_emod_self_left, Int.add_mul_ediv_left _ _ (by omega), ih hcs]

/-- C22: calling `Next()` from the start visits every tile of the grid exactly once per pass, `done`
is returned exactly by the calls that complete a pass, and each pass repeats the first one
(positions included). -/
theorem c22_visits (cfg : List DimCfg) (hpos : ∀ c ∈ cfg, 1 ≤ c.count) (hne : cfg ≠ []) :
    (∀ n, InShape (cfg.map (·.count)) ((nextN cfg n).1.map (·.idx))) ∧
    (∀ js, InShape (cfg.map (·.count)) js →
      ∃ n : Nat, ((n : Int) < prod (cfg.map (·.count)) ∧ (nextN cfg n).1.map (·.idx) = js) ∧
        ∀ m : Nat, (m : Int) < prod (cfg.map (·.count)) ∧ (nextN cfg m).1.map (·.idx) = js → m = n) ∧
    (∀ n, (nextN cfg (n + 1)).2 = true ↔ ((n + 1 : Nat) : Int) % prod (cfg.map (·.count)) = 0) ∧
    (∀ n, (nextN cfg (n + (prod (cfg.map (·.count))).toNat)).1 = (nextN cfg n).1) ∧
    (nextN cfg (prod (cfg.map (·.count))).toNat).1 = reset cfg := by
  have hT := prodCount_pos hpos
  refine ⟨?_, ?_, ?_, ?_, ?_⟩
  · intro n; rw [nextN_eq hpos]; exact stateAt_inShape cfg hpos n
  · intro js hj
    obtain ⟨a, b⟩ := encode_range _ _ hj
    refine ⟨(encode (cfg.map (·.count)) js).toNat, ⟨by omega, ?_⟩, ?_⟩
    · rw [nextN_eq hpos, Int.toNat_of_nonneg a]; exact stateAt_encode cfg js hj
    · rintro m ⟨h1, h2⟩
      rw [nextN_eq hpos] at h2
      have := encode_stateAt cfg hpos m
      rw [h2, Int.emod_eq_of_lt (by omega) h1] at this
      omega
  · intro n
    simp only [nextN]
    rw [nextN_eq hpos, next_stateAt cfg hpos n (by omega)]
    simp [hne]
  · intro n
    rw [nextN_eq hpos, nextN_eq hpos]
    have := stateAt_period cfg hpos n 1
    rw [← this]; congr 1; push_cast; rw [Int.toNat_of_nonneg (by omega)]; ring
  · rw [nextN_eq hpos, Int.toNat_of_nonneg (by omega)]
    have := stateAt_period cfg hpos 0 1
    rw [stateAt_zero] at this
    rw [← this]; congr 1; ring

/-- A 3 x 2 grid: the states of one pass and the restart. -/
example :
    let cfg := tileCfg [5, 4] [2, 2] [0, 1] 0
    (List.range 7).map (fun n => ((nextN cfg n).1.map (fun s => (s.pos, s.idx)), (nextN cfg n).2)) =
      [([(0, 0), (0, 0)], false), ([(2, 1), (0, 0)], false), ([(4, 2), (0, 0)], false),
       ([(0, 0), (2, 1)], false), ([(2, 1), (2, 1)], false), ([(4, 2), (2, 1)], false),
       ([(0, 0), (0, 0)], true)] := by decide

/-- mli_iterator.hpp:53-71: the single-tile configuration for a tensor of a smaller rank. -/
def wholeCfg (shape : List Int) (iterRank : Nat) : List DimCfg :=
  (List.range iterRank).map fun i =>
    if i < shape.length then
      { order := i, count := 1, firstInc := 0, inc := 0, lastInc := 0
        firstSize := shape.getD i 0, size := shape.getD i 0, lastSize := shape.getD i 0, code := 0 }
    else
      { order := i, count := -1, firstInc := 0, inc := 0, lastInc := 0
        firstSize := 0, size := 0, lastSize := 0, code := 0 }

/-- **Violation**: the single-tile configuration for a tensor whose rank is smaller than the
iteration rank has a negative tile count, and `Next()` never reports completion. -/
theorem c22_smaller_rank_violated : ∀ n, (nextN (wholeCfg [4] 2) n).2 = false := by
  have h : ∀ n : Nat, nextN (wholeCfg [4] 2) n = ([{ pos := 0, idx := 0 }, { pos := 0, idx := n }], false) := by
    intro n
    induction n with
    | zero => rfl
    | succ n ih =>
      simp only [nextN, ih]
      have e : wholeCfg [4] 2 = [⟨0, 1, 0, 0, 0, 4, 4, 4, 0⟩, ⟨1, -1, 0, 0, 0, 0, 0, 0, 0⟩] := by decide
      rw [e]
      by_cases h0 : (n : Int) = 0
      · simp [next, h0]
      · simp [next]
  intro n; rw [h]

/-- **Violation**: `Next(pos_inc)` never reports completion when the slowest iteration dimension is
marked as skipped (order -1, as written by `set_config` for the surplus dimensions). -/
theorem c22_skipped_dim_violated (c : DimCfg) (i j : Int) :
    (nextInc [c, ⟨-1, 1, 0, 0, 0, 0, 0, 0, 0⟩] [i, j]).2.2 = false := by
  simp only [nextInc]
  split
  · rfl
  · split
    · rfl
    · split <;> rfl

/-! ## C23: increments -/

/-- The increments of one pass along a dimension: first, middle (count - 2 times), last. -/
def passIncs (c : DimCfg) : List Int :=
  if c.count = 1 then [c.lastInc]
  else c.firstInc :: (List.replicate (c.count - 2).toNat c.inc ++ [c.lastInc])

/-- The increments of a pass along the dimension add up to zero. -/
def Closed (c : DimCfg) : Prop := (passIncs c).sum = 0

theorem closed_iff {c : DimCfg} (h : 1 ≤ c.count) : Closed c ↔
    (c.count = 1 ∧ c.lastInc = 0) ∨ (2 ≤ c.count ∧ c.firstInc + (c.count - 2) * c.inc + c.lastInc = 0) := by
  unfold Closed passIncs
  by_cases h1 : c.count = 1
  · rw [if_pos h1]; simp [h1]
  · rw [if_neg h1]
    rw [List.sum_cons, List.sum_append, List.sum_replicate, List.sum_singleton]
    have : ((c.count - 2).toNat : Int) = c.count - 2 := by omega
    rw [nsmul_eq_mul, this]
    constructor
    · intro h; right; exact ⟨by omega, by linarith⟩
    · rintro (h | h)
      · omega
      · linarith [h.2]

theorem posOf_last {c : DimCfg} (h : 1 ≤ c.count) (hc : Closed c) : posOf c (c.count - 1) + c.lastInc = 0 := by
  rw [closed_iff h] at hc
  unfold posOf
  rcases hc with ⟨a, b⟩ | ⟨a, b⟩
  · rw [if_pos (by omega)]; omega
  · rw [if_neg (by omega)]; linarith [show (c.count - 1 - 1) = c.count - 2 by ring, show (c.count - 1 - 1) * c.inc = (c.count - 2) * c.inc by ring]

theorem zipWith_add_zero (l : List Int) {α : Type} (m : List α) (h : l.length = m.length) :
    List.zipWith (· + ·) l (m.map fun _ => (0 : Int)) = l := by
  induction l generalizing m with
  | nil => simp
  | cons x xs ih => cases m with
    | nil => simp at h
    | cons y ys => simp only [List.map_cons, List.zipWith_cons_cons, Int.add_zero]; rw [ih ys (by simpa using h)]

theorem stateAt_length (cfg : List DimCfg) (n : Int) : (stateAt cfg n).length = cfg.length := by
  induction cfg generalizing n with
  | nil => rfl
  | cons c cs ih => simp [stateAt, ih]

theorem nextInc_spec : ∀ (cfg : List DimCfg), (∀ c ∈ cfg, 1 ≤ c.count ∧ 0 ≤ c.order ∧ Closed c) → ∀ n : Int, 0 ≤ n →
    List.zipWith (· + ·) ((stateAt cfg n).map (·.pos)) (nextInc cfg ((stateAt cfg n).map (·.idx))).1 =
      (stateAt cfg (n + 1)).map (·.pos) ∧
    (nextInc cfg ((stateAt cfg n).map (·.idx))).2.1 = (stateAt cfg (n + 1)).map (·.idx) ∧
    (nextInc cfg ((stateAt cfg n).map (·.idx))).2.2 = (next cfg (stateAt cfg n)).2 := by
  intro cfg
  induction cfg with
  | nil => intro _ n _; simp [nextInc, stateAt, next]
  | cons c cs ih =>
    intro h n hn
    obtain ⟨hc, ho, hcl⟩ := h c (List.mem_cons_self ..)
    have hcs := fun d hd => h d (List.mem_cons_of_mem _ hd)
    have hq0 := Int.emod_nonneg n (show c.count ≠ 0 by omega)
    have hq1 := Int.emod_lt_of_pos n (show 0 < c.count by omega)
    have hd := Int.emod_add_mul_ediv n c.count
    have hm : 0 ≤ n / c.count := Int.ediv_nonneg hn (by omega)
    obtain ⟨i1, i2, i3⟩ := ih hcs _ hm
    simp only [stateAt, List.map_cons, nextInc, next, if_neg (show ¬ c.order < 0 by omega)]
    by_cases hl : n % c.count = c.count - 1
    · have e : n + 1 = c.count * (n / c.count + 1) := by
        rw [Int.mul_add, Int.mul_one]; omega
      have e1 : (n + 1) % c.count = 0 := by rw [e]; exact Int.mul_emod_right _ _
      have e2 : (n + 1) / c.count = n / c.count + 1 := by
        rw [e]; exact Int.mul_ediv_cancel_left _ (by omega)
      rw [if_pos hl, if_pos hl, e1, e2]
      refine ⟨?_, ?_, ?_⟩
      · simp only [List.zipWith_cons_cons]
        rw [i1, hl, posOf_last hc hcl]; simp [posOf]
      · simp only; rw [i2]
      · simp only; rw [i3]
    · have e : n + 1 = c.count * (n / c.count) + (n % c.count + 1) := by omega
      have e1 : (n + 1) % c.count = n % c.count + 1 := by
        rw [e, Int.mul_add_emod_self_left]
        exact Int.emod_eq_of_lt (by omega) (by omega)
      have e2 : (n + 1) / c.count = n / c.count := by
        rw [e, Int.add_comm, Int.add_mul_ediv_left _ _ (by omega), Int.ediv_eq_zero_of_lt (by omega) (by omega)]
        omega
      rw [if_neg hl, if_neg hl, e1, e2]
      have hlen : ((stateAt cs (n / c.count)).map (·.pos)).length = cs.length := by simp [stateAt_length]
      by_cases h0 : n % c.count = 0
      · rw [if_pos h0, if_pos h0, h0]
        refine ⟨?_, rfl, rfl⟩
        simp only [List.zipWith_cons_cons]
        rw [zipWith_add_zero _ _ hlen]; simp [posOf]
      · rw [if_neg h0, if_neg h0]
        refine ⟨?_, rfl, rfl⟩
        simp only [List.zipWith_cons_cons]
        rw [zipWith_add_zero _ _ hlen]
        simp only [posOf, if_neg h0, if_neg (show ¬ (n % c.count + 1 = 0) by omega), List.cons.injEq, and_true]
        ring

theorem accInc_eq {cfg : List DimCfg} (h : ∀ c ∈ cfg, 1 ≤ c.count ∧ 0 ≤ c.order ∧ Closed c) (n : Nat) :
    accInc cfg n = ((stateAt cfg n).map (·.pos), (stateAt cfg n).map (·.idx)) := by
  induction n with
  | zero =>
    simp only [accInc, Nat.cast_zero, stateAt_zero, reset, List.map_map]
    rfl
  | succ n ih =>
    obtain ⟨i1, i2, _⟩ := nextInc_spec cfg h n (by omega)
    simp only [accInc, ih, i1, i2]
    push_cast; rfl

/-- C23: a caller that accumulates the increments returned by `Next(pos_inc)` is always at the
position that `Next()` maintains, and every completed pass brings each dimension back to 0. -/
theorem c23_increments (cfg : List DimCfg) (h : ∀ c ∈ cfg, 1 ≤ c.count ∧ 0 ≤ c.order ∧ (passIncs c).sum = 0) (n : Nat) :
    (accInc cfg n).1 = (nextN cfg n).1.map (·.pos) ∧
    (accInc cfg n).2 = (nextN cfg n).1.map (·.idx) ∧
    (accInc cfg (n * (prod (cfg.map (·.count))).toNat)).1 = cfg.map fun _ => 0 := by
  have hpos : ∀ c ∈ cfg, 1 ≤ c.count := fun c hc => (h c hc).1
  have hT := prodCount_pos hpos
  rw [accInc_eq h, nextN_eq hpos, accInc_eq h]
  refine ⟨rfl, rfl, ?_⟩
  push_cast
  rw [Int.toNat_of_nonneg (by omega)]
  have := stateAt_period cfg hpos 0 n
  rw [Int.zero_add] at this
  rw [this, stateAt_zero]
  simp only [reset, List.map_map]; rfl

/-! ## C21: tiles partition the tensor -/

theorem u32_add_left (a b : Int) : u32 (u32 a + b) = u32 (a + b) := Int.emod_add_emod ..
theorem u32_sub_left (a b : Int) : u32 (u32 a - b) = u32 (a - b) := Int.emod_sub_emod ..
theorem u32_mul_left (a b : Int) : u32 (u32 a * b) = u32 (a * b) := by
  unfold u32; rw [Int.mul_emod, Int.emod_emod_of_dvd _ (Int.dvd_refl _), ← Int.mul_emod]
theorem u32_mul_right (a b : Int) : u32 (a * u32 b) = u32 (a * b) := by
  unfold u32; rw [Int.mul_emod, Int.emod_emod_of_dvd _ (Int.dvd_refl _), ← Int.mul_emod]

theorem wrap_u32 {x : Int} (h : -2 ^ 31 ≤ x ∧ x < 2 ^ 31) : wrap 32 (u32 x) = x := by
  have h1 := wrap_emod 32 (u32 x)
  have h2 := wrap_inRange (w := 32) (u32 x)
  unfold u32 InRange lo hi at *
  norm_num at *
  omega

/-- Documented use of the tiling constructor: the tile fits into the tensor and the skew is smaller
than the tile (sizes below 2^30). -/
structure TileOk (n tile skew : Int) : Prop where
  htile : 1 ≤ tile ∧ tile ≤ n
  hskew : 0 ≤ skew ∧ skew < tile
  hsmall : n < 2 ^ 30

theorem tileDim_facts {n tile skew : Int} (d : Int) (h : TileOk n tile skew) :
    ∃ q r : Int, n + skew = tile * q + r ∧ 1 ≤ r ∧ r ≤ tile ∧ 0 ≤ q ∧ (0 < skew → 1 ≤ q) ∧
      (tileDim d n tile skew).count = q + 1 ∧ (tileDim d n tile skew).firstInc = tile - skew ∧
      (tileDim d n tile skew).inc = tile ∧ (tileDim d n tile skew).lastInc = skew - tile * q ∧
      (tileDim d n tile skew).firstSize = tile - skew ∧ (tileDim d n tile skew).size = tile ∧
      (tileDim d n tile skew).lastSize = r := by
  obtain ⟨⟨t1, t2⟩, ⟨s1, s2⟩, hn⟩ := h
  have hm0 := Int.emod_nonneg (n + skew - 1) (show tile ≠ 0 by omega)
  have hm1 := Int.emod_lt_of_pos (n + skew - 1) (show 0 < tile by omega)
  have hd := Int.emod_add_mul_ediv (n + skew - 1) tile
  have hq : 0 ≤ (n + skew - 1) / tile := Int.ediv_nonneg (by omega) (by omega)
  have hc : (n + skew + tile - 1) / tile = (n + skew - 1) / tile + 1 := by
    rw [show n + skew + tile - 1 = (n + skew - 1) + tile * 1 by ring, Int.add_mul_ediv_left _ _ (by omega)]
  generalize hqe : (n + skew - 1) / tile = q at *
  have hqn : tile * q ≤ n + skew - 1 := by omega
  have hqle : q ≤ tile * q := by nlinarith
  have ec : (tileDim d n tile skew).count = q + 1 := by
    simp only [tileDim, ceilDivU]
    rw [u32_id (x := n + skew) ⟨by omega, by omega⟩, u32_id (x := n + skew + tile) ⟨by omega, by omega⟩,
      u32_id (x := n + skew + tile - 1) ⟨by omega, by omega⟩, hc, ← u32_id (x := q + 1) ⟨by omega, by omega⟩, wrap_u32 ⟨by omega, by omega⟩,
      u32_id (x := q + 1) ⟨by omega, by omega⟩]
  refine ⟨q, (n + skew - 1) % tile + 1, by omega, by omega, by omega, hq, ?_, ec, ?_, ?_, ?_, ?_, rfl, ?_⟩
  · intro h0
    by_contra hlt
    have : q = 0 := by omega
    subst this; omega
  · exact wrap_u32 ⟨by omega, by omega⟩
  · show wrap 32 tile = tile
    rw [← u32_id (x := tile) ⟨by omega, by omega⟩, wrap_u32 ⟨by omega, by omega⟩, u32_id ⟨by omega, by omega⟩]
  · have : (tileDim d n tile skew).lastInc =
        wrap 32 (u32 (u32 (tile * u32 (1 - (tileDim d n tile skew).count)) + skew)) := rfl
    rw [this, ec, u32_mul_right, u32_add_left]
    have e : tile * (1 - (q + 1)) + skew = skew - tile * q := by ring
    rw [e]
    exact wrap_u32 ⟨by omega, by omega⟩
  · exact u32_id ⟨by omega, by omega⟩
  · simp only [tileDim]
    rw [u32_id (x := n + skew) ⟨by omega, by omega⟩, u32_id (x := n + skew - 1) ⟨by omega, by omega⟩,
      u32_id ⟨by omega, by omega⟩]

theorem posOf_tileDim {n tile skew : Int} (d : Int) (h : TileOk n tile skew) (j : Int) (hj : 0 ≤ j) :
    posOf (tileDim d n tile skew) j = max 0 (j * tile - skew) := by
  obtain ⟨q, r, h1, h2, h3, h4, h5, e1, e2, e3, e4, e5, e6, e7⟩ := tileDim_facts d h
  unfold posOf
  rw [e2, e3]
  have := h.hskew
  by_cases h0 : j = 0
  · subst h0; simp; omega
  · rw [if_neg h0]
    have hj1 : 1 ≤ j := by omega
    have : tile ≤ j * tile := by nlinarith [h.htile.1]
    rw [max_eq_right (by omega)]; ring

/-- One dimension: coordinate `x` belongs to exactly the tile `(x + skew) / tile`; tiles are inside
the tensor and not empty. -/
theorem tileDim_spec {n tile skew : Int} (d : Int) (h : TileOk n tile skew) (j : Int)
    (hj : 0 ≤ j ∧ j < (tileDim d n tile skew).count) :
    let c := tileDim d n tile skew
    let sz := tileSize n c { pos := posOf c j, idx := j }
    0 ≤ posOf c j ∧ 1 ≤ sz ∧ posOf c j + sz ≤ n ∧
    (∀ x, 0 ≤ x → x < n → ((posOf c j ≤ x ∧ x < posOf c j + sz) ↔ j = (x + skew) / tile)) ∧
    (∀ x, 0 ≤ x → x < n → 0 ≤ (x + skew) / tile ∧ (x + skew) / tile < c.count) := by
  obtain ⟨q, r, h1, h2, h3, h4, h5, e1, e2, e3, e4, e5, e6, e7⟩ := tileDim_facts d h
  have hp := posOf_tileDim d h j hj.1
  obtain ⟨⟨t1, t2⟩, ⟨s1, s2⟩, hn⟩ := h
  simp only
  rw [e1] at hj ⊢
  have hjq : j * tile ≤ tile * q := by nlinarith
  have hpos : posOf (tileDim d n tile skew) j = if j = 0 then 0 else j * tile - skew := by
    rw [hp]
    split
    · rename_i h0; subst h0; simp; omega
    · rename_i h0
      have hj1 : 1 ≤ j := by omega
      have : tile ≤ j * tile := by nlinarith
      exact max_eq_right (by omega)
  have hsz : posOf (tileDim d n tile skew) j + tileSize n (tileDim d n tile skew)
      { pos := posOf (tileDim d n tile skew) j, idx := j } =
      if j = q then n else (j + 1) * tile - skew := by
    unfold tileSize
    simp only
    rw [e1, e5, e6, e7]
    by_cases hl : j = q
    · rw [if_pos (by omega), if_pos hl, hpos]
      subst hl
      split
      · rename_i h0; subst h0
        have : ¬ 0 < skew := by intro h'; have := h5 h'; omega
        have : skew = 0 := by omega
        subst this; simp at h1; omega
      · nlinarith
    · rw [if_neg (by omega), if_neg hl]
      by_cases h0 : j = 0
      · rw [if_pos h0, hpos, if_pos h0]; subst h0; ring
      · have hj1 : 1 ≤ j := by omega
        have hjq1 : j + 1 ≤ q := by omega
        have hj2 : (j + 1) * tile ≤ tile * q := by nlinarith
        rw [if_neg h0, hpos, if_neg h0]
        have hx : (j + 1) * tile = j * tile + tile := by ring
        have hjt : tile ≤ j * tile := by nlinarith
        rw [u32_id (x := j * tile - skew) ⟨by omega, by omega⟩, u32_id ⟨by omega, by omega⟩, min_eq_right (by omega)]
        omega
  have hb : ∀ x, 0 ≤ x → x < n → 0 ≤ (x + skew) / tile ∧ (x + skew) / tile < q + 1 := by
    intro x hx0 hx1
    refine ⟨Int.ediv_nonneg (by omega) (by omega), ?_⟩
    rw [Int.ediv_lt_iff_lt_mul (by omega)]
    nlinarith
  have hiff : ∀ x, 0 ≤ x → x < n → ((posOf (tileDim d n tile skew) j ≤ x ∧
      x < posOf (tileDim d n tile skew) j + tileSize n (tileDim d n tile skew)
        { pos := posOf (tileDim d n tile skew) j, idx := j }) ↔ j = (x + skew) / tile) := by
    intro x hx0 hx1
    rw [hsz, hpos]
    have hm0 := Int.emod_nonneg (x + skew) (show tile ≠ 0 by omega)
    have hm1 := Int.emod_lt_of_pos (x + skew) (show 0 < tile by omega)
    have hd := Int.emod_add_mul_ediv (x + skew) tile
    obtain ⟨hb0, hb1⟩ := hb x hx0 hx1
    constructor
    · rintro ⟨a, b⟩
      have lo1 : j * tile ≤ x + skew := by
        split at a
        · rename_i h0; subst h0; omega
        · omega
      have hi1 : x + skew < (j + 1) * tile := by
        split at b
        · rename_i h0; subst h0; nlinarith
        · omega
      symm
      have g1 : j ≤ (x + skew) / tile := by rw [Int.le_ediv_iff_mul_le (by omega)]; exact lo1
      have g2 : (x + skew) / tile < j + 1 := by rw [Int.ediv_lt_iff_lt_mul (by omega)]; exact hi1
      omega
    · intro hje
      have g1 : j * tile ≤ x + skew := by rw [← Int.le_ediv_iff_mul_le (by omega)]; omega
      have g2 : x + skew < (j + 1) * tile := by rw [← Int.ediv_lt_iff_lt_mul (by omega)]; omega
      constructor
      · split <;> omega
      · split <;> omega
  refine ⟨?_, ?_, ?_, hiff, hb⟩
  · rw [hp]; exact le_max_left _ _
  · by_cases hl : j = q
    · rw [if_pos hl] at hsz
      split at hpos
      · omega
      · have : j * tile = tile * q := by rw [hl]; ring
        omega
    · rw [if_neg hl] at hsz
      have hx : (j + 1) * tile = j * tile + tile := by ring
      split at hpos
      · rename_i h0; subst h0; omega
      · omega
  · rw [hsz]
    split
    · omega
    · rename_i hl
      have hjq1 : j + 1 ≤ q := by omega
      have : (j + 1) * tile ≤ tile * q := by nlinarith
      omega

theorem getD_set_self (l : List Int) (d : Nat) (v : Int) (h : d < l.length) : (l.set d v).getD d 0 = v := by
  simp [List.getD_eq_getElem?_getD, h]

theorem getD_set_ne (l : List Int) (d e : Nat) (v : Int) (h : d ≠ e) : (l.set d v).getD e 0 = l.getD e 0 := by
  simp [List.getD_eq_getElem?_getD, h]

theorem subTensor_spec (shape : List Int) : ∀ (cfg : List DimCfg) (ss : List DimSt),
    cfg.length = ss.length → (cfg.map (·.order)).Nodup →
    (∀ c ∈ cfg, 0 ≤ c.order ∧ c.order < shape.length) →
    (subTensor shape cfg ss).1.length = shape.length ∧ (subTensor shape cfg ss).2.length = shape.length ∧
    ∀ p ∈ cfg.zip ss, (subTensor shape cfg ss).1.getD p.1.order.toNat 0 = u32 p.2.pos ∧
      (subTensor shape cfg ss).2.getD p.1.order.toNat 0 = tileSize (shape.getD p.1.order.toNat 0) p.1 p.2 := by
  intro cfg
  induction cfg with
  | nil => intro ss _ _ _; simp [subTensor]
  | cons c cs ih =>
    intro ss hl hnd hb
    cases ss with
    | nil => simp at hl
    | cons s ss =>
      rw [List.map_cons, List.nodup_cons] at hnd
      obtain ⟨hc0, hc1⟩ := hb c (List.mem_cons_self ..)
      obtain ⟨i1, i2, i3⟩ := ih ss (by simpa using hl) hnd.2 (fun d hd => hb d (List.mem_cons_of_mem _ hd))
      simp only [subTensor, if_neg (show ¬ c.order < 0 by omega)]
      refine ⟨by rw [List.length_set]; exact i1, by rw [List.length_set]; exact i2, ?_⟩
      intro p hp
      rw [List.zip_cons_cons, List.mem_cons] at hp
      rcases hp with rfl | hp
      · exact ⟨getD_set_self _ _ _ (by omega), getD_set_self _ _ _ (by omega)⟩
      · have hm : p.1 ∈ cs := (List.of_mem_zip hp).1
        have hne : c.order.toNat ≠ p.1.order.toNat := by
          have := hb p.1 (List.mem_cons_of_mem _ hm)
          intro he
          apply hnd.1
          rw [List.mem_map]
          exact ⟨p.1, hm, by omega⟩
        rw [getD_set_ne _ _ _ _ hne, getD_set_ne _ _ _ _ hne]
        exact i3 p hp

theorem zip_stateAt : ∀ (cfg : List DimCfg), (∀ c ∈ cfg, 1 ≤ c.count) → ∀ (n : Int), ∀ p ∈ cfg.zip (stateAt cfg n),
    p.2.pos = posOf p.1 p.2.idx ∧ 0 ≤ p.2.idx ∧ p.2.idx < p.1.count := by
  intro cfg
  induction cfg with
  | nil => intro _ n p hp; simp at hp
  | cons c cs ih =>
    intro h n p hp
    have hc := h c (List.mem_cons_self ..)
    simp only [stateAt, List.zip_cons_cons, List.mem_cons] at hp
    rcases hp with rfl | hp
    · exact ⟨rfl, Int.emod_nonneg n (by omega), Int.emod_lt_of_pos n (by omega)⟩
    · exact ih (fun d hd => h d (List.mem_cons_of_mem _ hd)) _ p hp

theorem zip_idx_iff (J : DimCfg → Int) : ∀ (cfg : List DimCfg) (ss : List DimSt), cfg.length = ss.length →
    ((∀ p ∈ cfg.zip ss, p.2.idx = J p.1) ↔ ss.map (·.idx) = cfg.map J) := by
  intro cfg
  induction cfg with
  | nil => intro ss h; cases ss with
    | nil => simp
    | cons s ss => simp at h
  | cons c cs ih =>
    intro ss h
    cases ss with
    | nil => simp at h
    | cons s ss =>
      simp only [List.zip_cons_cons, List.mem_cons, List.map_cons, List.cons.injEq]
      rw [← ih ss (by simpa using h)]
      constructor
      · intro hp; exact ⟨hp (c, s) (Or.inl rfl), fun p hp' => hp p (Or.inr hp')⟩
      · rintro ⟨h1, h2⟩ p (rfl | hp)
        · exact h1
        · exact h2 p hp

/-- Coordinate vector `x` lies in the box `(position, size)`. -/
def Inside (b : List Int × List Int) (x : List Int) : Prop :=
  ∀ d, d < x.length → b.1.getD d 0 ≤ x.getD d 0 ∧ x.getD d 0 < b.1.getD d 0 + b.2.getD d 0

/-- Documented arguments of the tiling constructor: `order` is a permutation of the dimensions,
every tile size fits, and the skew (applied to the first iteration dimension) is below its tile size. -/
structure TilingOk (shape tiles : List Int) (order : List Nat) (skew : Int) : Prop where
  len : order.length = shape.length
  pos : 0 < shape.length
  nodup : order.Nodup
  lt : ∀ d ∈ order, d < shape.length
  dims : ∀ i, i < order.length → TileOk (shape.getD (order.getD i 0) 0) (tiles.getD (order.getD i 0) 0)
    (if i = 0 then skew else 0)

theorem tileCfg_mem {shape tiles : List Int} {order : List Nat} {skew : Int} (h : TilingOk shape tiles order skew)
    {c : DimCfg} (hc : c ∈ tileCfg shape tiles order skew) :
    ∃ d : Nat, ∃ sk : Int, d < shape.length ∧ TileOk (shape.getD d 0) (tiles.getD d 0) sk ∧
      c = tileDim d (shape.getD d 0) (tiles.getD d 0) sk := by
  unfold tileCfg at hc
  rw [List.mem_map] at hc
  obtain ⟨i, hi, rfl⟩ := hc
  rw [List.mem_range] at hi
  refine ⟨order.getD i 0, _, h.lt _ ?_, h.dims i hi, rfl⟩
  rw [List.getD_eq_getElem?_getD, List.getElem?_eq_getElem hi]
  exact List.getElem_mem ..

theorem tileCfg_order {shape tiles : List Int} {order : List Nat} {skew : Int} :
    (tileCfg shape tiles order skew).map (·.order) = order.map (fun d : Nat => (d : Int)) := by
  apply List.ext_getElem?
  intro i
  unfold tileCfg
  rw [List.getElem?_map, List.getElem?_map, List.getElem?_map]
  by_cases hi : i < order.length
  · rw [List.getElem?_range hi, List.getElem?_eq_getElem hi]
    simp [tileDim, List.getD_eq_getElem?_getD, hi]
  · rw [List.getElem?_eq_none (by simp; omega), List.getElem?_eq_none (by omega)]; rfl

theorem tileCfg_count_pos {shape tiles : List Int} {order : List Nat} {skew : Int}
    (h : TilingOk shape tiles order skew) : ∀ c ∈ tileCfg shape tiles order skew, 1 ≤ c.count := by
  intro c hc
  obtain ⟨d, sk, _, hok, rfl⟩ := tileCfg_mem h hc
  obtain ⟨q, r, h1, h2, h3, h4, h5, e1, _⟩ := tileDim_facts d hok
  omega

theorem order_surj {order : List Nat} {r : Nat} (hl : order.length = r) (hnd : order.Nodup) (hlt : ∀ d ∈ order, d < r)
    {d : Nat} (hd : d < r) : d ∈ order := by
  have hp : order.Perm (List.range r) := by
    apply (List.subperm_of_subset hnd (fun x hx => List.mem_range.mpr (hlt x hx))).perm_of_length_le
    simp [hl]
  exact hp.mem_iff.mpr (List.mem_range.mpr hd)

/-- C21: the tiles delivered during one pass are non-empty boxes inside the tensor, and every element
belongs to exactly one of them. -/
theorem c21_tiles_partition (shape tiles : List Int) (order : List Nat) (skew : Int)
    (h : TilingOk shape tiles order skew) :
    let cfg := tileCfg shape tiles order skew
    let T := prod (cfg.map (·.count))
    (∀ n d, d < shape.length →
      0 ≤ (subTensor shape cfg (nextN cfg n).1).1.getD d 0 ∧ 1 ≤ (subTensor shape cfg (nextN cfg n).1).2.getD d 0 ∧
      (subTensor shape cfg (nextN cfg n).1).1.getD d 0 + (subTensor shape cfg (nextN cfg n).1).2.getD d 0
        ≤ shape.getD d 0) ∧
    (∀ x, InShape shape x → ∃ n : Nat, ((n : Int) < T ∧ Inside (subTensor shape cfg (nextN cfg n).1) x) ∧
      ∀ m : Nat, (m : Int) < T ∧ Inside (subTensor shape cfg (nextN cfg m).1) x → m = n) := by
  intro cfg T
  have hpos := tileCfg_count_pos h
  have hne : cfg ≠ [] := by
    intro he
    have : cfg.length = order.length := by simp [cfg, tileCfg]
    rw [he, h.len] at this
    have := h.pos
    simp_all
  have hnd : (cfg.map (·.order)).Nodup := by
    show ((tileCfg shape tiles order skew).map (·.order)).Nodup
    rw [tileCfg_order]
    exact List.Nodup.map (fun a b hab => by exact_mod_cast hab) h.nodup
  have hb : ∀ c ∈ cfg, 0 ≤ c.order ∧ c.order < shape.length := by
    intro c hc
    obtain ⟨d, sk, hd, _, rfl⟩ := tileCfg_mem h hc
    simp only [tileDim]; omega
  have hsub := fun n => subTensor_spec shape cfg (stateAt cfg n) (by rw [stateAt_length]) hnd hb
  -- every dimension is iterated
  have hcov : ∀ d, d < shape.length → ∃ c ∈ cfg, c.order = d := by
    intro d hd
    have hm : (d : Int) ∈ cfg.map (·.order) := by
      show (d : Int) ∈ (tileCfg shape tiles order skew).map (·.order)
      rw [tileCfg_order, List.mem_map]
      exact ⟨d, order_surj h.len h.nodup h.lt hd, rfl⟩
    rw [List.mem_map] at hm
    exact hm
  have hzip : ∀ (n : Int) (c : DimCfg), c ∈ cfg → ∃ p ∈ cfg.zip (stateAt cfg n), p.1 = c := by
    intro n c hc
    have hfst : (cfg.zip (stateAt cfg n)).map Prod.fst = cfg := List.map_fst_zip (by rw [stateAt_length])
    rw [← hfst, List.mem_map] at hc
    exact hc
  have hcell : ∀ (n : Int) (p), p ∈ cfg.zip (stateAt cfg n) →
      ∃ (d : Nat) (sk : Int), TileOk (shape.getD d 0) (tiles.getD d 0) sk ∧
        p.1 = tileDim d (shape.getD d 0) (tiles.getD d 0) sk ∧ d < shape.length ∧
        p.2 = { pos := posOf p.1 p.2.idx, idx := p.2.idx } ∧ 0 ≤ p.2.idx ∧ p.2.idx < p.1.count := by
    intro n p hp
    obtain ⟨d, sk, hd, hok, he⟩ := tileCfg_mem h (List.of_mem_zip hp).1
    obtain ⟨z1, z2, z3⟩ := zip_stateAt cfg hpos n p hp
    refine ⟨d, sk, hok, he, hd, ?_, z2, z3⟩
    rw [← z1]
  constructor
  · intro n d hd
    rw [nextN_eq hpos]
    obtain ⟨c, hc, hcd⟩ := hcov d hd
    obtain ⟨p, hp, hpc⟩ := hzip n c hc
    obtain ⟨g1, g2⟩ := (hsub n).2.2 p hp
    obtain ⟨d', sk, hok, he, hd', hst, z1, z2⟩ := hcell n p hp
    have hdd : d' = d := by
      rw [hpc] at he
      have : c.order = d' := by rw [he]; rfl
      omega
    subst hdd
    have hord : p.1.order.toNat = d' := by rw [he]; simp [tileDim]
    rw [hord, hst] at g1 g2
    rw [g1, g2]
    rw [he] at z2 ⊢
    obtain ⟨s1, s2, s3, _⟩ := tileDim_spec d' hok p.2.idx ⟨z1, z2⟩
    have := hok.hsmall
    rw [u32_id ⟨s1, by omega⟩]
    exact ⟨s1, s2, s3⟩
  · intro x hx
    have hxl := inShape_length _ _ hx
    rw [inShape_iff] at hx
    let J : DimCfg → Int := fun c => (x.getD c.order.toNat 0 + (c.inc - c.firstInc)) / c.inc
    have hcellx : ∀ (n : Int) (p), p ∈ cfg.zip (stateAt cfg n) → ∀ b1 b2 : Int,
        b1 = u32 p.2.pos → b2 = tileSize (shape.getD p.1.order.toNat 0) p.1 p.2 →
        ((b1 ≤ x.getD p.1.order.toNat 0 ∧ x.getD p.1.order.toNat 0 < b1 + b2) ↔ p.2.idx = J p.1) := by
      intro n p hp b1 b2 hb1 hb2
      obtain ⟨d, sk, hok, he, hd, hst, z1, z2⟩ := hcell n p hp
      have hord : p.1.order.toNat = d := by rw [he]; simp [tileDim]
      have hJ : J p.1 = (x.getD d 0 + sk) / tiles.getD d 0 := by
        simp only [J]
        rw [hord]
        obtain ⟨q, r, _, _, _, _, _, _, e2, e3, _⟩ := tileDim_facts d hok
        rw [he, e2, e3]
        congr 1; ring
      rw [hst] at hb1 hb2
      rw [hJ, hb1, hb2, hord]
      rw [he] at z2 ⊢
      obtain ⟨s1, s2, s3, s4, _⟩ := tileDim_spec d hok p.2.idx ⟨z1, z2⟩
      have := hok.hsmall
      rw [u32_id ⟨s1, by omega⟩]
      obtain ⟨x0, x1⟩ := hx.2 d hd
      exact s4 _ x0 x1
    have hins : ∀ n : Int, Inside (subTensor shape cfg (stateAt cfg n)) x ↔ (stateAt cfg n).map (·.idx) = cfg.map J := by
      intro n
      rw [← zip_idx_iff J cfg (stateAt cfg n) (by rw [stateAt_length])]
      constructor
      · intro hi p hp
        obtain ⟨g1, g2⟩ := (hsub n).2.2 p hp
        have hb' := hb p.1 (List.of_mem_zip hp).1
        have := hi p.1.order.toNat (by omega)
        exact (hcellx n p hp _ _ g1 g2).mp this
      · intro hi d hd
        obtain ⟨c, hc, hcd⟩ := hcov d (by omega)
        obtain ⟨p, hp, hpc⟩ := hzip n c hc
        obtain ⟨g1, g2⟩ := (hsub n).2.2 p hp
        have hord : p.1.order.toNat = d := by rw [hpc, hcd]; rfl
        have := (hcellx n p hp _ _ g1 g2).mpr (hi p hp)
        rw [hord] at this
        exact this
    have hJs : InShape (cfg.map (·.count)) (cfg.map J) := by
      rw [inShape_iff]
      refine ⟨by simp, ?_⟩
      intro i hi
      rw [List.length_map] at hi
      rw [List.getD_eq_getElem?_getD, List.getD_eq_getElem?_getD, List.getElem?_map, List.getElem?_map,
        List.getElem?_eq_getElem hi]
      simp only [Option.map_some, Option.getD_some]
      obtain ⟨d, sk, hd, hok, he⟩ := tileCfg_mem h (List.getElem_mem hi : cfg[i] ∈ cfg)
      have hord : cfg[i].order.toNat = d := by rw [he]; simp [tileDim]
      have hJ : J cfg[i] = (x.getD d 0 + sk) / tiles.getD d 0 := by
        simp only [J]
        rw [hord]
        obtain ⟨q, r, _, _, _, _, _, _, e2, e3, _⟩ := tileDim_facts d hok
        rw [he, e2, e3]
        congr 1; ring
      obtain ⟨x0, x1⟩ := hx.2 d hd
      have hc1 := hpos _ (List.getElem_mem hi : cfg[i] ∈ cfg)
      rw [he] at hc1
      obtain ⟨s1, s2, s3, _, s5⟩ := tileDim_spec d hok 0 ⟨by omega, by omega⟩
      rw [hJ, he]
      exact s5 _ x0 x1
    obtain ⟨_, v2, _⟩ := c22_visits cfg hpos hne
    obtain ⟨n, ⟨n1, n2⟩, n3⟩ := v2 _ hJs
    refine ⟨n, ⟨n1, ?_⟩, ?_⟩
    · rw [nextN_eq hpos] at n2 ⊢
      exact (hins n).mpr n2
    · rintro m ⟨m1, m2⟩
      apply n3 m
      rw [nextN_eq hpos] at m2 ⊢
      exact ⟨m1, (hins m).mp m2⟩

/-- C21/C23 for the tiling constructor: its increments add up to zero along each dimension. -/
theorem c23_tiling_closed (shape tiles : List Int) (order : List Nat) (skew : Int)
    (h : TilingOk shape tiles order skew) :
    ∀ c ∈ tileCfg shape tiles order skew, 1 ≤ c.count ∧ 0 ≤ c.order ∧ (passIncs c).sum = 0 := by
  intro c hc
  have h1 := tileCfg_count_pos h c hc
  obtain ⟨d, sk, hd, hok, rfl⟩ := tileCfg_mem h hc
  refine ⟨h1, by simp [tileDim], ?_⟩
  rw [show (passIncs _).sum = 0 ↔ Closed (tileDim d (shape.getD d 0) (tiles.getD d 0) sk) from Iff.rfl, closed_iff h1]
  obtain ⟨q, r, f1, f2, f3, f4, f5, e1, e2, e3, e4, _⟩ := tileDim_facts d hok
  rw [e1, e2, e3, e4]
  by_cases hq : q = 0
  · left
    subst hq
    have : ¬ 0 < sk := fun h' => by have := f5 h'; omega
    have := hok.hskew
    omega
  · right
    exact ⟨by omega, by ring⟩

/-- The hypotheses are met by a 3-dimensional tiling with a skew and a permuted order. -/
example : TilingOk [5, 4, 7] [2, 2, 3] [2, 0, 1] 1 := by
  refine ⟨rfl, by decide, by decide, by decide, ?_⟩
  intro i hi
  have : i = 0 ∨ i = 1 ∨ i = 2 := by simp at hi; omega
  rcases this with rfl | rfl | rfl <;> exact ⟨by decide, by decide, by decide⟩

/-- **Violation**: the constructor's own assertion allows a skew equal to the tile size; the first
tile is then empty. -/
theorem c21_full_skew_violated :
    let cfg := tileCfg [8] [4] [0] 4
    (subTensor [8] cfg (nextN cfg 0).1) = ([0], [0]) := by decide

/-- **Violation**: dropping an axis exchanges the first and the regular increment (lines 205-206), so
with a skewed tiling the coordinates 2 and 3 are in no tile. -/
theorem c21_drop_axis_violated :
    let cfg := dropAxis (tileCfg [8, 6] [4, 6] [0, 1] 2) 1
    (nextN cfg 3).2 = true ∧
    (List.range 3).map (fun n => subTensor [8] cfg (nextN cfg n).1) = [([0], [2]), ([4], [4]), ([6], [2])] := by
  decide

/-! ## C24: update index -/

/-- Tile size by the kind of the tile (first, middle, last). -/
def nominal (c : DimCfg) (i : Int) : Int :=
  if i = c.count - 1 then c.lastSize else if i = 0 then c.firstSize else c.size

theorem nominal_eq_of_updPart {c : DimCfg} (hcode : c.code = calcDiffCode c.count c.firstSize c.size c.lastSize)
    {i j : Int} (hi : 0 ≤ i ∧ i < c.count) (hj : 0 ≤ j ∧ j < c.count) (h : (updPart c i).1 = (updPart c j).1) :
    nominal c i = nominal c j := by
  unfold updPart at h
  rw [hcode] at h
  unfold calcDiffCode at h
  unfold nominal
  by_cases h1 : c.count > 1
  · rw [if_pos h1] at h
    by_cases h2 : c.count > 2 ∧ c.firstSize ≠ c.size
    · simp only [if_pos h2] at h
      by_cases h3 : c.firstSize = c.lastSize
      · simp only [if_pos h3] at h
        repeat' split at h
        all_goals (repeat' split) <;> omega
      · simp only [if_neg h3] at h
        by_cases h4 : c.size = c.lastSize
        · simp only [if_pos h4] at h
          repeat' split at h
          all_goals (repeat' split) <;> omega
        · simp only [if_neg h4] at h
          repeat' split at h
          all_goals (repeat' split) <;> omega
    · simp only [if_neg h2] at h
      by_cases h3 : c.firstSize ≠ c.lastSize
      · simp only [if_pos h3] at h
        repeat' split at h
        all_goals (repeat' split) <;> omega
      · (repeat' split) <;> omega
  · (repeat' split) <;> omega

theorem updPart_lt (c : DimCfg) (i : Int) : (updPart c i).1 < (updPart c i).2 := by
  unfold updPart
  split <;> simp only <;> (repeat' split) <;> omega

theorem updPart_num (c : DimCfg) (i j : Int) : (updPart c i).2 = (updPart c j).2 := by
  unfold updPart
  split <;> rfl

theorem updIdx_mul : ∀ (cfg : List DimCfg) (is : List Int) (m : Nat), updIdx cfg is m = m * updIdx cfg is 1 := by
  intro cfg
  induction cfg with
  | nil => intro is m; simp [updIdx]
  | cons c cs ih =>
    intro is m
    cases is with
    | nil => simp [updIdx]
    | cons i is =>
      simp only [updIdx]
      rw [ih is (m * _), ih is (1 * _)]; ring

theorem updIdx_inj : ∀ (cfg : List DimCfg) (is js : List Int), is.length = cfg.length → js.length = cfg.length →
    updIdx cfg is 1 = updIdx cfg js 1 →
    ∀ r, r < cfg.length → ∀ c, cfg[r]? = some c → (updPart c (is.getD r 0)).1 = (updPart c (js.getD r 0)).1 := by
  intro cfg
  induction cfg with
  | nil => intro _ _ _ _ _ r hr; simp at hr
  | cons c cs ih =>
    intro is js hi hj h r hr d hd
    cases is with
    | nil => simp at hi
    | cons i is =>
      cases js with
      | nil => simp at hj
      | cons j js =>
        simp only [updIdx, Nat.one_mul] at h
        rw [updIdx_mul cs is, updIdx_mul cs js, updPart_num c i j] at h
        have l1 := updPart_lt c i
        have l2 := updPart_lt c j
        rw [updPart_num c i j] at l1
        generalize (updPart c j).2 = q at h l1 l2
        have e1 : (updPart c i).1 = (updPart c j).1 := by
          have := congrArg (· % q) h
          simp only [Nat.mul_one, Nat.add_mul_mod_self_left] at this
          rwa [Nat.mod_eq_of_lt l1, Nat.mod_eq_of_lt l2] at this
        have e2 : updIdx cs is 1 = updIdx cs js 1 := by
          have hq : 0 < q := by omega
          rw [e1] at h
          exact Nat.eq_of_mul_eq_mul_left hq (by omega)
        cases r with
        | zero => simp at hd; subst hd; simpa using e1
        | succ r =>
          simp only [List.getD_cons_succ]
          exact ih is js (by simpa using hi) (by simpa using hj) e2 r (by simpa using hr) d (by simpa using hd)

/-- C24 for any configuration whose layout codes are up to date and whose middle tiles are not
clipped at the end of the tensor: tiles with equal update indices have equal sizes. -/
theorem c24_update_idx_partial (shape : List Int) (cfg : List DimCfg) (hpos : ∀ c ∈ cfg, 1 ≤ c.count)
    (hcode : ∀ c ∈ cfg, c.code = calcDiffCode c.count c.firstSize c.size c.lastSize)
    (hclip : ∀ c ∈ cfg, ∀ j, 0 < j → j < c.count - 1 →
      c.size ≤ u32 (shape.getD c.order.toNat 0 - u32 (c.firstInc + (j - 1) * c.inc)))
    (n m : Nat) (h : updIdx cfg ((nextN cfg n).1.map (·.idx)) 1 = updIdx cfg ((nextN cfg m).1.map (·.idx)) 1) :
    (subTensor shape cfg (nextN cfg n).1).2 = (subTensor shape cfg (nextN cfg m).1).2 := by
  rw [nextN_eq hpos, nextN_eq hpos] at *
  have hinj := updIdx_inj cfg _ _ (by simp [stateAt_length]) (by simp [stateAt_length]) h
  -- equal sizes in each iteration dimension
  have hz : ∀ (cs : List DimCfg) (s1 s2 : List DimSt), cs.length = s1.length → cs.length = s2.length →
      (∀ r, r < cs.length → ∀ c, cs[r]? = some c → ∀ a b, s1[r]? = some a → s2[r]? = some b →
        ∀ N, N = shape.getD c.order.toNat 0 → tileSize N c a = tileSize N c b) →
      (subTensor shape cs s1).2 = (subTensor shape cs s2).2 := by
    intro cs
    induction cs with
    | nil => intro s1 s2 _ _ _; simp [subTensor]
    | cons c cs ih =>
      intro s1 s2 h1 h2 hall
      cases s1 with
      | nil => simp at h1
      | cons a s1 =>
        cases s2 with
        | nil => simp at h2
        | cons b s2 =>
          have h0 := hall 0 (by simp) c rfl a b rfl rfl _ rfl
          have ih' := ih s1 s2 (by simpa using h1) (by simpa using h2) (by
            intro r hr c' hc' a' b' ha' hb'
            exact hall (r + 1) (by simpa using hr) c' (by simpa using hc') a' b' (by simpa using ha') (by simpa using hb'))
          simp only [subTensor]
          split
          · exact ih'
          · simp only; rw [ih', h0]
  apply hz
  · rw [stateAt_length]
  · rw [stateAt_length]
  · intro r hr c hc a b ha hb N hN
    have hmem : c ∈ cfg := List.mem_of_getElem? hc
    have hza : (c, a) ∈ cfg.zip (stateAt cfg n) := by
      apply List.mem_of_getElem? (i := r); rw [List.getElem?_zip_eq_some]; exact ⟨hc, ha⟩
    have hzb : (c, b) ∈ cfg.zip (stateAt cfg m) := by
      apply List.mem_of_getElem? (i := r); rw [List.getElem?_zip_eq_some]; exact ⟨hc, hb⟩
    obtain ⟨a1, a2, a3⟩ := zip_stateAt cfg hpos n _ hza
    obtain ⟨b1, b2, b3⟩ := zip_stateAt cfg hpos m _ hzb
    have hp := hinj r hr c hc
    rw [List.getD_eq_getElem?_getD, List.getElem?_map, ha, List.getD_eq_getElem?_getD, List.getElem?_map, hb] at hp
    simp only [Option.map_some, Option.getD_some] at hp
    have hnom := nominal_eq_of_updPart (hcode c hmem) ⟨a2, a3⟩ ⟨b2, b3⟩ hp
    have hts : ∀ s : DimSt, s.pos = posOf c s.idx → 0 ≤ s.idx → s.idx < c.count → tileSize N c s = nominal c s.idx := by
      intro s s1 s2 s3
      unfold tileSize nominal
      split
      · rfl
      · split
        · rfl
        · rename_i g1 g2
          have := hclip c hmem s.idx (by omega) (by omega)
          rw [s1, posOf, if_neg g2, hN]
          exact min_eq_right this
    rw [hts a a1 a2 a3, hts b b1 b2 b3, hnom]

/-- C24 for the tiling constructor, without further conditions. -/
theorem c24_update_idx_tiling (shape tiles : List Int) (order : List Nat) (skew : Int)
    (h : TilingOk shape tiles order skew) (n m : Nat)
    (he : let cfg := tileCfg shape tiles order skew
      updIdx cfg ((nextN cfg n).1.map (·.idx)) 1 = updIdx cfg ((nextN cfg m).1.map (·.idx)) 1) :
    let cfg := tileCfg shape tiles order skew
    (subTensor shape cfg (nextN cfg n).1).2 = (subTensor shape cfg (nextN cfg m).1).2 := by
  apply c24_update_idx_partial shape _ (tileCfg_count_pos h) _ _ n m he
  · intro c hc
    obtain ⟨d, sk, _, _, rfl⟩ := tileCfg_mem h hc
    rfl
  · intro c hc j h0 h1
    obtain ⟨d, sk, hd, hok, rfl⟩ := tileCfg_mem h hc
    obtain ⟨q, r, f1, f2, f3, f4, f5, e1, e2, e3, e4, e5, e6, e7⟩ := tileDim_facts d hok
    obtain ⟨⟨t1, t2⟩, ⟨s1, s2⟩, hn⟩ := hok
    have hord : (tileDim d (shape.getD d 0) (tiles.getD d 0) sk).order.toNat = d := by simp [tileDim]
    rw [hord, e2, e3, e6]
    rw [e1] at h1
    generalize tiles.getD d 0 = tile at *
    generalize shape.getD d 0 = N at *
    have hj2 : (j + 1) * tile ≤ tile * q := by nlinarith
    have hjt : tile ≤ j * tile := by nlinarith
    have hx : tile - sk + (j - 1) * tile = j * tile - sk := by ring
    have hx2 : (j + 1) * tile = j * tile + tile := by ring
    rw [hx, u32_id (x := j * tile - sk) ⟨by omega, by omega⟩, u32_id ⟨by omega, by omega⟩]
    omega

/-- **Violation**: for the input tiling of a kernel of size 5 with 4 elements of post-padding, the
middle tiles are clipped to different sizes (4 and 3) while the update index is the same. -/
theorem c24_clipped_violated :
    let cfg := kernelCfg (tileCfg [5] [1] [0] 0) [5] (fun _ => 5) (fun _ => 1) (fun _ => 0)
    updIdx cfg ((nextN cfg 1).1.map (·.idx)) 1 = updIdx cfg ((nextN cfg 2).1.map (·.idx)) 1 ∧
    (subTensor [5] cfg (nextN cfg 1).1).2 = [4] ∧ (subTensor [5] cfg (nextN cfg 2).1).2 = [3] := by decide

/-- The index does distinguish tiles: the corner tile and an inner tile of a 5 x 4 tiling. -/
example : let cfg := tileCfg [5, 4] [2, 2] [0, 1] 0
    updIdx cfg ((nextN cfg 0).1.map (·.idx)) 1 = 0 ∧ updIdx cfg ((nextN cfg 2).1.map (·.idx)) 1 = 1 ∧
    updIdx cfg ((nextN cfg 4).1.map (·.idx)) 1 = 0 := by decide

/-! ## C25: input tiles of a sliding-window kernel -/

/-- Documented use of the kernel-aware constructor along one dimension: `out` is the output extent
(tiled by `tile`, `skew`), `n` the input extent, `k` the effective kernel size, `s` the stride, `p` the
pre-padding.  The pre-padding is smaller than the kernel and does not exceed the first step (the
assertion of line 182), and the last window starts inside the input. -/
structure KernOk (out tile skew n k s p : Int) : Prop where
  otile : TileOk out tile skew
  hk : 1 ≤ k
  hs : 1 ≤ s
  hp : 0 ≤ p ∧ p < k
  hfirst : p ≤ (tile - skew) * s
  hlast : (out - 1) * s - p < n
  hn : 1 ≤ n ∧ n < 2 ^ 30
  hsmall : out * s + k < 2 ^ 30

theorem kernelDim_facts {out tile skew n k s p : Int} (d : Int) (h : KernOk out tile skew n k s p) :
    let c := tileDim d out tile skew
    let e := kernelDim c n k s p
    e.order = d ∧ e.count = c.count ∧ e.firstInc = (tile - skew) * s - p ∧ e.inc = tile * s ∧
    (2 ≤ c.count → e.lastInc = tile * s * (2 - c.count) - ((tile - skew) * s - p)) ∧
    (c.count = 1 → e.lastInc = 0) ∧ e.size = (tile - 1) * s + k ∧
    e.firstSize = min ((tile - skew - 1) * s + k - p) n ∧ e.lastSize = u32 (n + e.lastInc) := by
  obtain ⟨q, r, f1, f2, f3, f4, f5, e1, e2, e3, e4, e5, e6, e7⟩ := tileDim_facts d h.otile
  obtain ⟨⟨⟨t1, t2⟩, ⟨s1, s2⟩, hN⟩, hk, hs, ⟨hp0, hp1⟩, hf, hl, ⟨hn1, hn2⟩, hsm⟩ := h
  have hts : tile * s ≤ out * s := by nlinarith
  have hfs0 : 0 ≤ (tile - skew - 1) * s := by
    apply Int.mul_nonneg <;> omega
  have hfs : (tile - skew - 1) * s ≤ out * s - s := by nlinarith
  have hx1 : (tile - skew - 1) * s = (tile - skew) * s - s := by ring
  have hx2 : (tile - 1) * s = tile * s - s := by ring
  have ht0 : 0 ≤ (tile - 1) * s := by apply Int.mul_nonneg <;> omega
  have i1 : (kernelDim (tileDim d out tile skew) n k s p).inc = tile * s := by
    simp only [kernelDim]; rw [e3]; exact wrap_u32 ⟨by omega, by omega⟩
  have i2 : (kernelDim (tileDim d out tile skew) n k s p).firstInc = (tile - skew) * s - p := by
    simp only [kernelDim]; rw [e2, u32_sub_left]; exact wrap_u32 ⟨by omega, by omega⟩
  have i3 : (kernelDim (tileDim d out tile skew) n k s p).lastInc =
      if (tileDim d out tile skew).count > 1 then
        (kernelDim (tileDim d out tile skew) n k s p).inc * (2 - (tileDim d out tile skew).count)
          - (kernelDim (tileDim d out tile skew) n k s p).firstInc
      else 0 := rfl
  refine ⟨rfl, rfl, i2, i1, ?_, ?_, ?_, ?_, rfl⟩
  · intro hc; rw [i3, if_pos (by omega), i1, i2]
  · intro hc; rw [i3, if_neg (by omega)]
  · simp only [kernelDim]; rw [e6, u32_mul_left, u32_add_left]; exact u32_id ⟨by omega, by omega⟩
  · simp only [kernelDim]
    rw [e5, u32_mul_left, u32_add_left, u32_sub_left, u32_id ⟨by omega, by omega⟩]
    split
    · rw [min_eq_right (by omega)]
    · rw [min_eq_left (by omega)]

theorem kernelDim_aux {out tile skew n k s p q r : Int} (c e : DimCfg) (h : KernOk out tile skew n k s p)
    (f1 : 0 ≤ q) (e1 : c.count = q + 1) (hqt : tile * q ≤ out + skew)
    (e5 : c.firstSize = tile - skew) (e6 : c.size = tile)
    (g1 : e.count = c.count) (g2 : e.firstInc = (tile - skew) * s - p) (g3 : e.inc = tile * s)
    (g4 : 2 ≤ c.count → e.lastInc = tile * s * (2 - c.count) - ((tile - skew) * s - p))
    (g5 : c.count = 1 → e.lastInc = 0) (g6 : e.size = (tile - 1) * s + k)
    (g7 : e.firstSize = min ((tile - skew - 1) * s + k - p) n) (g8 : e.lastSize = u32 (n + e.lastInc))
    (j opos osz ipos isz : Int) (hj : 0 ≤ j ∧ j < c.count)
    (hosz0 : osz = tileSize out c { pos := opos, idx := j })
    (hipos0 : ipos = posOf e j) (hisz0 : isz = tileSize n e { pos := ipos, idx := j })
    (a1 : 0 ≤ opos) (a2 : 1 ≤ osz) (a3 : opos + osz ≤ out) (hop : opos = max 0 (j * tile - skew)) :
    0 ≤ ipos ∧ ipos + isz ≤ n ∧ ipos = max 0 (opos * s - p) ∧
    (j < c.count - 1 → ipos + isz = min n ((opos + osz - 1) * s + k - p)) ∧
    (∀ o t, opos ≤ o → o < opos + osz → 0 ≤ t → t < k → 0 ≤ o * s + t - p → o * s + t - p < n →
      ipos ≤ o * s + t - p ∧ o * s + t - p < ipos + isz) := by
  obtain ⟨⟨⟨t1, t2⟩, ⟨s1, s2⟩, hN⟩, hk, hs, ⟨hp0, hp1⟩, hf, hl, ⟨hn1, hn2⟩, hsm⟩ := h
  have hjq : j ≤ q := by omega
  have hoppos : opos ≤ out - 1 := by omega
  have hs0 : 0 ≤ s := by omega
  have ht0 : 0 ≤ tile := by omega
  have hops : opos * s ≤ (out - 1) * s := Int.mul_le_mul_of_nonneg_right hoppos hs0
  have hjt : 1 ≤ j → tile ≤ j * tile := fun hj1 => by
    have := Int.mul_le_mul_of_nonneg_right hj1 ht0
    rwa [one_mul] at this
  have hop1 : 1 ≤ j → opos = j * tile - skew := by
    intro hj1
    have := hjt hj1
    rw [hop, max_eq_right (by omega)]
  have hip : ipos = if j = 0 then 0 else opos * s - p := by
    rw [hipos0]
    unfold posOf
    by_cases h0 : j = 0
    · rw [if_pos h0, if_pos h0]
    · rw [if_neg h0, if_neg h0, hop1 (by omega), g2, g3]; ring
  have hip0 : j = 0 → opos = 0 := by
    intro h0; rw [hop, h0]; simp; omega
  have hge : 1 ≤ j → p ≤ opos * s := by
    intro hj1
    have h1 : tile - skew ≤ opos := by
      rw [hop1 hj1]; have := hjt hj1; omega
    have := Int.mul_le_mul_of_nonneg_right h1 hs0
    omega
  have hipmax : ipos = max 0 (opos * s - p) := by
    rw [hip]
    by_cases h0 : j = 0
    · rw [if_pos h0, hip0 h0, max_eq_left (by omega)]
    · rw [if_neg h0, max_eq_right]; have := hge (by omega); omega
  have hosz : j < q → osz = if j = 0 then tile - skew else tile := by
    intro hjl
    rw [hosz0]
    unfold tileSize
    simp only
    rw [e1, e5, e6, if_neg (by omega)]
    by_cases h0 : j = 0
    · rw [if_pos h0, if_pos h0]
    · rw [if_neg h0, if_neg h0]
      have hjq1 : j + 1 ≤ q := by omega
      have hj2 : (j + 1) * tile ≤ tile * q := by
        rw [mul_comm tile q]; exact Int.mul_le_mul_of_nonneg_right hjq1 ht0
      have := hop1 (by omega)
      have hx : (j + 1) * tile = j * tile + tile := by ring
      rw [u32_id (x := opos) ⟨by omega, by omega⟩, u32_id ⟨by omega, by omega⟩, min_eq_right (by omega)]
  have hend : ipos + isz = if j = q then n else min n ((opos + osz - 1) * s + k - p) := by
    rw [hisz0]
    unfold tileSize
    simp only
    rw [g1, e1]
    by_cases hjl : j = q
    · rw [if_pos (by omega), if_pos hjl, g8]
      have hli : e.lastInc = -ipos := by
        by_cases hq : q = 0
        · rw [g5 (by omega), hip, if_pos (by omega)]; rfl
        · rw [g4 (by omega), hip, if_neg (by omega), hop1 (by omega), e1, hjl]; ring
      rw [hli]
      have : 0 ≤ ipos := by rw [hipmax]; exact le_max_left _ _
      have : ipos < n := by rw [hip]; split <;> omega
      rw [u32_id ⟨by omega, by omega⟩]; ring
    · rw [if_neg (by omega), if_neg hjl, hosz (by omega)]
      by_cases h0 : j = 0
      · rw [if_pos h0, hip, if_pos h0, if_pos h0, hip0 h0, g7, min_comm]
        ring_nf
      · have := hge (by omega)
        have hin : ipos = opos * s - p := by rw [hip, if_neg h0]
        rw [if_neg h0, if_neg h0, g6, hin]
        rw [u32_id (x := opos * s - p) ⟨by omega, by omega⟩, u32_id ⟨by omega, by omega⟩]
        have hx : (opos + tile - 1) * s + k - p = (opos * s - p) + ((tile - 1) * s + k) := by ring
        rw [hx]
        rcases le_total (n - (opos * s - p)) ((tile - 1) * s + k) with hh | hh
        · rw [min_eq_left hh, min_eq_left (by omega)]; ring
        · rw [min_eq_right hh, min_eq_right (by omega)]
  refine ⟨?_, ?_, hipmax, ?_, ?_⟩
  · rw [hipmax]; exact le_max_left _ _
  · rw [hend]; split
    · omega
    · exact min_le_left _ _
  · intro hjl
    rw [hend, if_neg (by omega)]
  · intro o t o1 o2 ht0 ht1 hx0 hx1
    have hos : opos * s ≤ o * s := Int.mul_le_mul_of_nonneg_right o1 hs0
    have hos2 : o * s ≤ (opos + osz - 1) * s := Int.mul_le_mul_of_nonneg_right (by omega) hs0
    constructor
    · rw [hipmax]; exact max_le hx0 (by omega)
    · rw [hend]; split
      · exact hx1
      · exact lt_min hx1 (by omega)

/-- One dimension: the input tile `j` is inside the input and contains every input coordinate which
an output coordinate of the output tile `j` looks at; unless it is the last tile, it starts and ends
exactly with the receptive field (clipped to the input). -/
theorem c25_tile_extent {out tile skew n k s p : Int} (d : Int) (h : KernOk out tile skew n k s p) (j : Int)
    (hj : 0 ≤ j ∧ j < (tileDim d out tile skew).count) :
    let c := tileDim d out tile skew
    let e := kernelDim c n k s p
    let opos := posOf c j
    let osz := tileSize out c { pos := opos, idx := j }
    let ipos := posOf e j
    let isz := tileSize n e { pos := ipos, idx := j }
    0 ≤ ipos ∧ ipos + isz ≤ n ∧ ipos = max 0 (opos * s - p) ∧
    (j < c.count - 1 → ipos + isz = min n ((opos + osz - 1) * s + k - p)) ∧
    (∀ o t, opos ≤ o → o < opos + osz → 0 ≤ t → t < k → 0 ≤ o * s + t - p → o * s + t - p < n →
      ipos ≤ o * s + t - p ∧ o * s + t - p < ipos + isz) := by
  obtain ⟨q, r, f1, f2, f3, f4, f5, e1, e2, e3, e4, e5, e6, e7⟩ := tileDim_facts d h.otile
  obtain ⟨g0, g1, g2, g3, g4, g5, g6, g7, g8⟩ := kernelDim_facts d h
  obtain ⟨a1, a2, a3, _⟩ := tileDim_spec d h.otile j hj
  have hop := posOf_tileDim d h.otile j hj.1
  exact kernelDim_aux (q := q) (r := r) _ _ h (by omega) e1 (by omega) e5 e6 g1 g2 g3 g4 g5 g6 g7 g8 j _ _ _ _ hj
    rfl rfl rfl a1 a2 a3 hop

/-- C25: iterating output and input in lockstep, at every step every input element that some output
element of the current output tile looks at (through some kernel tap) is in the current input tile,
and the input tile lies inside the input tensor. -/
theorem c25_receptive_field (oshape tiles ishape : List Int) (order : List Nat) (skew : Int) (k s p : Nat → Int)
    (h : TilingOk oshape tiles order skew) (hlen : ishape.length = oshape.length)
    (hk : ∀ i, i < order.length → KernOk (oshape.getD (order.getD i 0) 0) (tiles.getD (order.getD i 0) 0)
      (if i = 0 then skew else 0) (ishape.getD (order.getD i 0) 0)
      (k (order.getD i 0)) (s (order.getD i 0)) (p (order.getD i 0)))
    (n : Nat) :
    let ocfg := tileCfg oshape tiles order skew
    let icfg := kernelCfg ocfg ishape k s p
    (∀ d, d < ishape.length → 0 ≤ (subTensor ishape icfg (nextN icfg n).1).1.getD d 0 ∧
      (subTensor ishape icfg (nextN icfg n).1).1.getD d 0 + (subTensor ishape icfg (nextN icfg n).1).2.getD d 0
        ≤ ishape.getD d 0) ∧
    (∀ o x, o.length = oshape.length → Inside (subTensor oshape ocfg (nextN ocfg n).1) o → InShape ishape x →
      (∀ d, d < ishape.length → ∃ t, 0 ≤ t ∧ t < k d ∧ x.getD d 0 = o.getD d 0 * s d + t - p d) →
      Inside (subTensor ishape icfg (nextN icfg n).1) x) := by
  intro ocfg icfg
  have hopos := tileCfg_count_pos h
  have hlenc : ocfg.length = order.length := by simp [ocfg, tileCfg]
  have hipos : ∀ c ∈ icfg, 1 ≤ c.count := by
    intro c hc
    obtain ⟨c', hc', rfl⟩ := List.mem_map.mp hc
    exact hopos c' hc'
  have hord : icfg.map (·.order) = ocfg.map (·.order) := by
    simp only [icfg, kernelCfg, List.map_map]; rfl
  have hcnt : icfg.map (·.count) = ocfg.map (·.count) := by
    simp only [icfg, kernelCfg, List.map_map]; rfl
  have hnd : (ocfg.map (·.order)).Nodup := by
    show ((tileCfg oshape tiles order skew).map (·.order)).Nodup
    rw [tileCfg_order]
    exact List.Nodup.map (fun a b hab => by exact_mod_cast hab) h.nodup
  have hob : ∀ c ∈ ocfg, 0 ≤ c.order ∧ c.order < oshape.length := by
    intro c hc
    obtain ⟨d, sk, hd, _, rfl⟩ := tileCfg_mem h hc
    simp only [tileDim]; omega
  have hib : ∀ c ∈ icfg, 0 ≤ c.order ∧ c.order < ishape.length := by
    intro c hc
    obtain ⟨c', hc', rfl⟩ := List.mem_map.mp hc
    rw [hlen]; exact hob c' hc'
  have hosub := subTensor_spec oshape ocfg (stateAt ocfg n) (by rw [stateAt_length]) hnd hob
  have hisub := subTensor_spec ishape icfg (stateAt icfg n) (by rw [stateAt_length]) (by rw [hord]; exact hnd) hib
  -- the same tile indices
  have hidx : ∀ (cs : List DimCfg) (g : DimCfg → DimCfg), (∀ c, (g c).count = c.count) → ∀ m : Int,
      (stateAt (cs.map g) m).map (·.idx) = (stateAt cs m).map (·.idx) := by
    intro cs g hg
    induction cs with
    | nil => intro m; rfl
    | cons c cs ih => intro m; simp only [List.map_cons, stateAt, hg, ih]
  -- everything about dimension `d`
  have hdim : ∀ d, d < ishape.length → ∃ (tile sk j : Int),
      KernOk (oshape.getD d 0) tile sk (ishape.getD d 0) (k d) (s d) (p d) ∧
      (0 ≤ j ∧ j < (tileDim d (oshape.getD d 0) tile sk).count) ∧
      (subTensor oshape ocfg (stateAt ocfg n)).1.getD d 0 = u32 (posOf (tileDim d (oshape.getD d 0) tile sk) j) ∧
      (subTensor oshape ocfg (stateAt ocfg n)).2.getD d 0 = tileSize (oshape.getD d 0)
        (tileDim d (oshape.getD d 0) tile sk) { pos := posOf (tileDim d (oshape.getD d 0) tile sk) j, idx := j } ∧
      (subTensor ishape icfg (stateAt icfg n)).1.getD d 0 =
        u32 (posOf (kernelDim (tileDim d (oshape.getD d 0) tile sk) (ishape.getD d 0) (k d) (s d) (p d)) j) ∧
      (subTensor ishape icfg (stateAt icfg n)).2.getD d 0 = tileSize (ishape.getD d 0)
        (kernelDim (tileDim d (oshape.getD d 0) tile sk) (ishape.getD d 0) (k d) (s d) (p d))
        { pos := posOf (kernelDim (tileDim d (oshape.getD d 0) tile sk) (ishape.getD d 0) (k d) (s d) (p d)) j,
          idx := j } := by
    intro d hd
    have hdm := order_surj h.len h.nodup h.lt (show d < oshape.length by omega)
    obtain ⟨i, hi, hid⟩ := List.getElem_of_mem hdm
    have hgd : order.getD i 0 = d := by
      rw [List.getD_eq_getElem?_getD, List.getElem?_eq_getElem hi]; exact hid
    have hK := hk i hi
    rw [hgd] at hK
    have hoc : ocfg[i]? = some (tileDim d (oshape.getD d 0) (tiles.getD d 0) (if i = 0 then skew else 0)) := by
      simp only [ocfg, tileCfg]
      rw [List.getElem?_map, List.getElem?_range hi]
      simp only [Option.map_some, hgd]
    generalize (if i = 0 then skew else 0 : Int) = sk at *
    generalize tiles.getD d 0 = tile at *
    have hic : icfg[i]? = some (kernelDim (tileDim d (oshape.getD d 0) tile sk) (ishape.getD d 0) (k d) (s d) (p d)) := by
      simp only [icfg, kernelCfg]
      rw [List.getElem?_map, hoc]
      simp [tileDim]
    have hso : i < (stateAt ocfg n).length := by rw [stateAt_length]; omega
    have hsi : i < (stateAt icfg n).length := by
      rw [stateAt_length]; simp only [icfg, kernelCfg, List.length_map]; omega
    have hzo : (tileDim d (oshape.getD d 0) tile sk, (stateAt ocfg n)[i]) ∈ ocfg.zip (stateAt ocfg n) := by
      apply List.mem_of_getElem? (i := i)
      rw [List.getElem?_zip_eq_some]; exact ⟨hoc, List.getElem?_eq_getElem hso⟩
    have hzi : (kernelDim (tileDim d (oshape.getD d 0) tile sk) (ishape.getD d 0) (k d) (s d) (p d),
        (stateAt icfg n)[i]) ∈ icfg.zip (stateAt icfg n) := by
      apply List.mem_of_getElem? (i := i)
      rw [List.getElem?_zip_eq_some]; exact ⟨hic, List.getElem?_eq_getElem hsi⟩
    have hsame : (stateAt icfg n)[i].idx = (stateAt ocfg n)[i].idx := by
      have := congrArg (·[i]?) (hidx ocfg (fun c =>
        kernelDim c (ishape.getD c.order.toNat 0) (k c.order.toNat) (s c.order.toNat) (p c.order.toNat)) (fun c => rfl) n)
      simp only [List.getElem?_map] at this
      change Option.map _ (stateAt icfg n)[i]? = _ at this
      rw [List.getElem?_eq_getElem hsi, List.getElem?_eq_getElem hso] at this
      simpa using this
    obtain ⟨o1, o2, o3⟩ := zip_stateAt ocfg hopos n _ hzo
    obtain ⟨i1, i2, i3⟩ := zip_stateAt icfg hipos n _ hzi
    obtain ⟨p1, p2⟩ := hosub.2.2 _ hzo
    obtain ⟨q1, q2⟩ := hisub.2.2 _ hzi
    have ht1 : (tileDim d (oshape.getD d 0) tile sk).order.toNat = d := by simp [tileDim]
    have ht2 : (kernelDim (tileDim d (oshape.getD d 0) tile sk) (ishape.getD d 0) (k d) (s d) (p d)).order.toNat = d := by
      simp [tileDim, kernelDim]
    simp only [ht1] at p1 p2
    simp only [ht2] at q1 q2
    simp only at o1 o2 o3 i1
    have eo : (stateAt ocfg n)[i] =
        ⟨posOf (tileDim d (oshape.getD d 0) tile sk) (stateAt ocfg n)[i].idx, (stateAt ocfg n)[i].idx⟩ := by
      rw [← o1]
    have ei : (stateAt icfg n)[i] = ⟨posOf (kernelDim (tileDim d (oshape.getD d 0) tile sk) (ishape.getD d 0)
        (k d) (s d) (p d)) (stateAt ocfg n)[i].idx, (stateAt ocfg n)[i].idx⟩ := by
      rw [← hsame, ← i1]
    refine ⟨tile, sk, (stateAt ocfg n)[i].idx, hK, ⟨o2, o3⟩, ?_, ?_, ?_, ?_⟩
    · rw [p1, ← o1]
    · rw [p2, ← eo]
    · rw [q1, ← hsame, ← i1]
    · rw [q2, ← ei]
  rw [nextN_eq hopos, nextN_eq hipos]
  constructor
  · intro d hd
    obtain ⟨tile, sk, j, hK, hj, _, _, c3, c4⟩ := hdim d hd
    obtain ⟨b1, b2, _⟩ := c25_tile_extent d hK j hj
    have h1 := hK.hn
    have hlt : posOf (kernelDim (tileDim d (oshape.getD d 0) tile sk) (ishape.getD d 0) (k d) (s d) (p d)) j < 2 ^ 32 := by
      obtain ⟨_, _, b3, _⟩ := c25_tile_extent d hK j hj
      obtain ⟨a1, a2, a3, _⟩ := tileDim_spec d hK.otile j hj
      have hsm := hK.hsmall
      have hk1 := hK.hk
      have hs1 := hK.hs
      have hp1 := hK.hp
      rw [b3]
      apply max_lt (by decide)
      nlinarith
    rw [c3, c4, u32_id ⟨b1, hlt⟩]
    exact ⟨b1, b2⟩
  · intro o x hol ho hx hrel
    have hxl := inShape_length _ _ hx
    rw [inShape_iff] at hx
    intro d hd
    have hd' : d < ishape.length := by omega
    obtain ⟨tile, sk, j, hK, hj, c1, c2, c3, c4⟩ := hdim d hd'
    obtain ⟨b1, b2, b3, _, b5⟩ := c25_tile_extent d hK j hj
    obtain ⟨a1, a2, a3, _⟩ := tileDim_spec d hK.otile j hj
    have hsm := hK.hsmall
    have hos := hK.otile.hsmall
    have hk1 := hK.hk
    have hs1 := hK.hs
    have hp1 := hK.hp
    have hlt : posOf (kernelDim (tileDim d (oshape.getD d 0) tile sk) (ishape.getD d 0) (k d) (s d) (p d)) j < 2 ^ 32 := by
      rw [b3]
      apply max_lt (by decide)
      nlinarith
    obtain ⟨o1, o2⟩ := ho d (by omega)
    rw [c1, u32_id ⟨a1, by omega⟩] at o1 o2
    rw [c2] at o2
    obtain ⟨t, ht0, ht1, hxe⟩ := hrel d hd'
    obtain ⟨x0, x1⟩ := hx.2 d hd'
    rw [c3, c4, u32_id ⟨b1, hlt⟩, hxe]
    rw [hxe] at x0 x1
    exact b5 _ t o1 o2 ht0 ht1 x0 x1

/-- A 3x3 convolution with stride 2, dilation 1 and padding 1 meets the hypotheses. -/
example : KernOk 7 3 1 13 3 2 1 := by
  refine ⟨⟨by decide, by decide, by decide⟩, by decide, by decide, by decide, by decide, by decide, by decide, by decide⟩

end Mli.Iter
