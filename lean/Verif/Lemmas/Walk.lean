import Verif.Model.Squash
import Verif.Spec.Traverse
import Verif.Lemmas.Mem
import Verif.Lemmas.Math
import Mathlib.Data.List.Nodup
import Mathlib.Data.List.Induction
import Mathlib.Data.List.Perm.Subperm

/-! # Traversals as folds over row-major multi-indices -/

namespace Mli

open Spec

theorem mem_rowMajor : ∀ {shape is : List Int}, is ∈ rowMajor shape ↔ InShape shape is := by
  intro shape
  induction shape with
  | nil => intro is; cases is <;> simp [rowMajor, InShape]
  | cons n ns ih =>
    intro is
    cases is with
    | nil => simp [rowMajor, InShape]
    | cons i is =>
      simp only [rowMajor, List.mem_flatMap, List.mem_range, List.mem_map, List.cons.injEq, InShape]
      constructor
      · rintro ⟨a, ha, b, hb, rfl, rfl⟩
        exact ⟨by omega, ih.mp hb⟩
      · rintro ⟨h1, h2⟩
        exact ⟨i.toNat, by omega, is, ih.mpr h2, by omega, rfl⟩

theorem nodup_rowMajor : ∀ (shape : List Int), (rowMajor shape).Nodup := by
  intro shape
  induction shape with
  | nil => simp [rowMajor]
  | cons n ns ih =>
    rw [rowMajor, List.nodup_flatMap]
    refine ⟨fun i _ => ih.map (fun a b h => by simpa using h), ?_⟩
    have := (List.nodup_range (n := n.toNat))
    refine List.Pairwise.imp ?_ this
    intro a b hab
    simp only [Function.onFun]
    rw [List.disjoint_left]
    intro x hx hy
    simp only [List.mem_map] at hx hy
    obtain ⟨u, _, rfl⟩ := hx
    obtain ⟨v, _, hv⟩ := hy
    simp only [List.cons.injEq] at hv
    omega

/-- Offsets of all tensors at a multi-index. -/
def jpos {k : Nat} : List (JDim k) → List Int → Fin k → Int
  | d :: ds, i :: is => fun j => i * d.s j + jpos ds is j
  | _, _ => fun _ => 0

/-- The sequence of offsets visited. -/
def walk {k : Nat} : List (JDim k) → List (Fin k → Int)
  | [] => [fun _ => 0]
  | d :: ds => (List.range d.n.toNat).flatMap fun (i : Nat) => (walk ds).map fun a => fun j => (i : Int) * d.s j + a j

theorem walk_eq {k : Nat} : ∀ (ds : List (JDim k)), walk ds = (rowMajor (ds.map (·.n))).map (jpos ds) := by
  intro ds
  induction ds with
  | nil => simp [walk, rowMajor, jpos]
  | cons d ds ih =>
    simp only [walk, List.map_cons, rowMajor, ih, List.map_flatMap, List.map_map]
    rfl

theorem range_mul (m n : Nat) :
    List.range (m * n) = (List.range m).flatMap fun i => (List.range n).map fun j => i * n + j := by
  induction m with
  | zero => simp
  | succ m ih =>
    rw [Nat.succ_mul, List.range_add, ih, List.range_succ, List.flatMap_append]
    simp

/-- Merging two dimensions does not change the visited sequence. -/
theorem walk_merge {k : Nat} (d1 d0 : JDim k) (ds : List (JDim k)) (h1 : 0 ≤ d1.n) (h0 : 0 ≤ d0.n)
    (hs : ∀ j, d1.s j = d0.n * d0.s j) (e : JDim k) (he : e.n = d1.n * d0.n) (hes : e.s = d0.s) :
    walk (d1 :: d0 :: ds) = walk (e :: ds) := by
  have hn : e.n.toNat = d1.n.toNat * d0.n.toNat := by rw [he, Int.toNat_mul h1 h0]
  simp only [walk, hn, range_mul, List.map_flatMap, List.flatMap_assoc, List.flatMap_map, List.map_map]
  congr 1
  funext i
  congr 1
  funext i'
  congr 1
  funext a
  simp only [Function.comp_apply]
  funext j
  rw [hs, hes]
  push_cast
  rw [Int.toNat_of_nonneg h0]
  ring

theorem walk_one {k : Nat} (ds : List (JDim k)) : walk (⟨1, fun _ => 0⟩ :: ds) = walk ds := by
  simp [walk]

theorem walk_replicate_one {k : Nat} (m : Nat) (ds : List (JDim k)) :
    walk (List.replicate m ⟨1, fun _ => 0⟩ ++ ds) = walk ds := by
  induction m with
  | zero => simp
  | succ m ih => rw [List.replicate_succ, List.cons_append, walk_one, ih]

/-- A prefix of dimensions is irrelevant for merging further inside. -/
theorem walk_append_congr {k : Nat} : ∀ (as : List (JDim k)) {bs cs : List (JDim k)}, walk bs = walk cs →
    walk (as ++ bs) = walk (as ++ cs) := by
  intro as
  induction as with
  | nil => intro bs cs h; simpa using h
  | cons a as ih => intro bs cs h; simp only [List.cons_append, walk]; rw [ih h]

theorem walk_padBack {k : Nat} (ds : List (JDim k)) : walk (padBack ds) = walk ds := by
  unfold padBack
  have : walk (ds ++ List.replicate (4 - ds.length) ⟨1, fun _ => 0⟩) = walk (ds ++ []) :=
    walk_append_congr ds (by simpa using walk_replicate_one (4 - ds.length) ([] : List (JDim k)))
  simpa using this

theorem walk_padFront {k : Nat} (ds : List (JDim k)) : walk (padFront ds) = walk ds := walk_replicate_one _ _

theorem foldlM_flatMap' {σ α β : Type} (L : List α) (g : α → List β) (f : σ → β → Option σ) (s : σ) :
    (L.flatMap g).foldlM f s = L.foldlM (fun s a => (g a).foldlM f s) s := by
  induction L generalizing s with
  | nil => rfl
  | cons a L ih =>
    rw [List.flatMap_cons, List.foldlM_append, List.foldlM_cons]
    congr 1
    funext s'
    exact ih s'

/-- The four loops visit the row-major sequence. -/
theorem nest4J_eq_walk {k : Nat} {σ : Type} (ds : List (JDim k)) (h : ds.length = 4)
    (f : (Fin k → Int) → σ → Option σ) (s : σ) :
    nest4J ds f s = (walk ds).foldlM (fun s a => f a s) s := by
  match ds, h with
  | [d0, d1, d2, d3], _ =>
    simp only [nest4J, forRange_eq_foldlM, walk, foldlM_flatMap', List.foldlM_map, List.foldlM_cons,
      List.foldlM_nil]
    congr 1
    funext s0 p0
    congr 1
    funext s1 p1
    congr 1
    funext s2 p2
    congr 1
    funext s3 p3
    rw [show pos4 d0 d1 d2 d3 p0 p1 p2 p3 =
      fun j => (p0 : Int) * d0.s j + (↑p1 * d1.s j + (↑p2 * d2.s j + (↑p3 * d3.s j + 0))) from by
        funext j; simp only [pos4]; ring]
    simp

/-- Innermost-first list of joint dimensions as an accepted tensor has them. -/
def JNested {k : Nat} : List (JDim k) → Prop
  | [] => True
  | [d] => 0 < d.n ∧ ∀ j, 0 < d.s j
  | d0 :: d1 :: ds => (0 < d0.n ∧ ∀ j, 0 < d0.s j) ∧ (∀ j, d0.n * d0.s j ≤ d1.s j) ∧ JNested (d1 :: ds)

theorem JNested.head {k : Nat} {d : JDim k} {ds : List (JDim k)} (h : JNested (d :: ds)) :
    0 < d.n ∧ ∀ j, 0 < d.s j := by
  cases ds with
  | nil => exact h
  | cons e es => exact h.1

theorem JNested.tail {k : Nat} {d : JDim k} {ds : List (JDim k)} (h : JNested (d :: ds)) : JNested ds := by
  cases ds with
  | nil => trivial
  | cons e es => exact h.2.2

/-- When the outer stride equals the inner size, the inner stride is 1. -/
theorem JNested.unit {k : Nat} {d0 d1 : JDim k} {ds : List (JDim k)} (h : JNested (d0 :: d1 :: ds))
    (hm : ∀ j, d1.s j = d0.n) : ∀ j, d0.s j = 1 := by
  intro j
  obtain ⟨⟨h1, h2⟩, h3, _⟩ := h
  have a := h3 j; have b := h2 j; rw [hm] at a
  by_contra hc
  have : 2 ≤ d0.s j := by omega
  nlinarith

theorem JNested.merge {k : Nat} {d0 d1 : JDim k} {ds : List (JDim k)} (h : JNested (d0 :: d1 :: ds))
    (hm : ∀ j, d1.s j = d0.n) : JNested ((⟨d1.n * d0.n, fun _ => 1⟩ : JDim k) :: ds) := by
  have h0 := h.head
  have h1 := h.tail.head
  have hp : 0 < d1.n * d0.n := Int.mul_pos h1.1 h0.1
  cases ds with
  | nil => exact ⟨hp, fun _ => by simp⟩
  | cons d2 ds =>
    refine ⟨⟨hp, fun _ => by simp⟩, fun j => ?_, h.tail.tail⟩
    have := h.tail.2.1 j
    rw [hm] at this
    simpa using this

theorem walk_squashLoop {k : Nat} : ∀ (m : Nat) (ds : List (JDim k)), ds.length = m → JNested ds →
    walk (squashLoop ds).reverse = walk ds.reverse ∧ (squashLoop ds).length ≤ ds.length := by
  intro m
  induction m using Nat.strong_induction_on with
  | _ m ih =>
    intro ds hl hn
    match ds, hl, hn with
    | [], _, _ => simp [squashLoop]
    | [d], _, _ => simp [squashLoop]
    | d0 :: d1 :: ds, hl, hn =>
      rw [squashLoop]
      split
      · rename_i hm
        obtain ⟨e1, e2⟩ := ih (ds.length + 1) (by rw [← hl]; simp) (⟨d1.n * d0.n, fun _ => 1⟩ :: ds) (by simp)
          (hn.merge hm)
        refine ⟨?_, ?_⟩
        · rw [e1]
          simp only [List.reverse_cons, List.append_assoc, List.cons_append, List.nil_append]
          have hu := hn.unit hm
          refine (walk_append_congr ds.reverse (walk_merge d1 d0 [] ?_ ?_ ?_ _ rfl ?_)).symm
          · have := hn.tail.head.1; omega
          · have := hn.head.1; omega
          · intro j; rw [hm, hu]; simp
          · funext j; simp [hu]
        · simp only [List.length_cons] at e2 ⊢; omega
      · exact ⟨rfl, Nat.le_refl _⟩

/-- Squashing does not change what is visited. -/
theorem walk_squashGeneric {k : Nat} (ds : List (JDim k)) (hn : JNested ds.reverse) (hl : ds.length ≤ 4) :
    walk (squashGeneric ds) = walk ds ∧ (squashGeneric ds).length = 4 := by
  obtain ⟨h1, h2⟩ := walk_squashLoop _ ds.reverse rfl hn
  refine ⟨?_, ?_⟩
  · rw [squashGeneric, walk_padFront, h1, List.reverse_reverse]
  · simp only [squashGeneric, padFront, List.length_append, List.length_replicate, List.length_reverse] at h2 ⊢
    omega

/-- The innermost stride stays 1. -/
theorem squashLoop_head {k : Nat} : ∀ (m : Nat) (d : JDim k) (ds : List (JDim k)), ds.length = m →
    (∀ j, d.s j = 1) → ∃ e es, squashLoop (d :: ds) = e :: es ∧ ∀ j, e.s j = 1 := by
  intro m
  induction m with
  | zero =>
    intro d ds hl hd
    have : ds = [] := List.length_eq_zero_iff.mp hl
    subst this
    exact ⟨d, [], by simp [squashLoop], hd⟩
  | succ m ih =>
    intro d ds hl hd
    match ds, hl with
    | d1 :: ds, hl =>
      rw [squashLoop]
      split
      · exact ih _ ds (by simpa using hl) (fun _ => rfl)
      · exact ⟨d, d1 :: ds, rfl, hd⟩

theorem nest3J_eq_nest4J {k : Nat} {σ : Type} (ds : List (JDim k)) (f : (Fin k → Int) → σ → Option σ) (s : σ)
    (h : ∀ d ∈ ds.getLast?, ∀ j, d.s j = 1) : nest3J ds f s = nest4J ds f s := by
  unfold nest3J nest4J
  split
  · rename_i d0 d1 d2 d3
    simp only [List.getLast?_cons_cons, List.getLast?_singleton, Option.mem_def, Option.some.injEq,
      forall_eq'] at h
    have hf : ∀ (n : Int) (o : Fin k → Int), flatJ n o f = forRange (σ := σ) n.toNat (fun i => f fun j => o j + i) :=
      fun n o => rfl
    simp only [hf]
    have : ∀ p0 p1 p2 : Nat, (fun p3 : Nat => f fun j => pos4 d0 d1 d2 d3 p0 p1 p2 0 j + (p3 : Int)) =
        fun p3 : Nat => f (pos4 d0 d1 d2 d3 p0 p1 p2 p3) := by
      intro p0 p1 p2
      funext p3
      congr 1
      funext j
      simp [pos4, h j]
    simp only [this]
  · rfl

theorem oneDimLoop_spec {k : Nat} : ∀ (ds : List (JDim k)) (d : JDim k), JNested (d :: ds) →
    (∀ j, d.s j = 1) → oneDimLoop d.n ds ≠ 0 →
    0 < oneDimLoop d.n ds ∧
    walk (d :: ds).reverse = walk [(⟨oneDimLoop d.n ds, fun _ => 1⟩ : JDim k)] := by
  intro ds
  induction ds with
  | nil =>
    intro d hn hd _
    refine ⟨hn.1, ?_⟩
    have : d.s = fun _ => 1 := funext hd
    simp [oneDimLoop, walk, this]
  | cons d1 ds ih =>
    intro d hn hd h0
    rw [oneDimLoop] at h0 ⊢
    split
    · rename_i hm
      rw [if_pos hm] at h0
      have hm' : ∀ j, d1.s j = d.n := hm
      have e : d.n * d1.n = d1.n * d.n := Int.mul_comm _ _
      rw [e] at h0 ⊢
      obtain ⟨i1, i2⟩ := ih ⟨d1.n * d.n, fun _ => 1⟩ (hn.merge hm') (fun _ => rfl) h0
      refine ⟨i1, ?_⟩
      rw [← i2]
      simp only [List.reverse_cons, List.append_assoc, List.cons_append, List.nil_append]
      refine (walk_append_congr ds.reverse (walk_merge d1 d [] ?_ ?_ ?_ _ rfl ?_))
      · have := hn.tail.head.1; omega
      · have := hn.head.1; omega
      · intro j; rw [hm, hd]; simp
      · funext j; simp [hd]
    · rename_i hm; exact absurd (if_neg hm) h0

theorem flatJ_eq_walk {k : Nat} {σ : Type} (n : Int) (f : (Fin k → Int) → σ → Option σ) (s : σ) :
    flatJ n (fun _ => 0) f s = (walk [(⟨n, fun _ => 1⟩ : JDim k)]).foldlM (fun s a => f a s) s := by
  simp [flatJ, walk, forRange_eq_foldlM, foldlM_flatMap']

/-- Any traversal of an accepted group of tensors with adjacent innermost elements is the
row-major traversal. -/
theorem traverse_eq_walk {k : Nat} {σ : Type} (ds : List (JDim k)) (hn : JNested ds.reverse)
    (hl : ds.length ≤ 4) (hr : ds ≠ []) (hu : ∀ d ∈ ds.getLast?, ∀ j, d.s j = 1)
    (f : (Fin k → Int) → σ → Option σ) (s : σ) :
    traverse ds f s = (walk ds).foldlM (fun s a => f a s) s := by
  unfold traverse squashOneDim
  obtain ⟨d, rest, hd⟩ : ∃ d rest, ds.reverse = d :: rest := by
    cases h : ds.reverse with
    | nil => exact absurd (List.reverse_eq_nil_iff.mp h) hr
    | cons d rest => exact ⟨d, rest, rfl⟩
  have hlast : ds.getLast? = some d := by
    rw [List.getLast?_eq_head?_reverse, hd]; rfl
  have hu' : ∀ j, d.s j = 1 := hu d hlast
  have hds : ds = (d :: rest).reverse := by rw [← hd, List.reverse_reverse]
  rw [hd] at hn
  simp only [hd, Option.bind_eq_bind, Option.bind_some]
  split
  · rename_i h0
    rw [flatJ_eq_walk, hds, (oneDimLoop_spec rest d hn hu' h0).2]
  · have hn' : JNested ds.reverse := by rw [hd]; exact hn
    rw [nest3J_eq_nest4J, nest4J_eq_walk _ (walk_squashGeneric ds hn' hl).2, (walk_squashGeneric ds hn' hl).1]
    obtain ⟨e, es, h1, h2⟩ := squashLoop_head _ d rest rfl hu'
    intro x hx
    rw [squashGeneric, hd, h1, padFront] at hx
    simp at hx
    subst hx
    exact h2

/-- Rule for loops that may work in place: the value stored at point `p` has to be right whenever
memory is unchanged at all addresses that no other point writes. -/
theorem foldlM_inplace {α : Type} (oa val : α → Int) (f : Buf → α → Option Buf) (d : Buf) (L : List α) :
    L.Nodup →
    (∀ p ∈ L, ∀ d' : Buf, d'.size = d.size →
      (∀ a, (∀ q ∈ L, q ≠ p → oa q ≠ a) → d'.get a = d.get a) → f d' p = d'.wr (oa p) (val p)) →
    (∀ p ∈ L, 0 ≤ oa p ∧ oa p < d.size) →
    (∀ p ∈ L, ∀ q ∈ L, oa p = oa q → p = q) →
    ∃ d', L.foldlM f d = some d' ∧ Stored L oa val d d' := by
  induction L using List.reverseRecOn with
  | nil => intro _ _ _ _; exact ⟨d, rfl, rfl, by simp, by simp⟩
  | append_singleton L x ih =>
    intro hnd hf hb hinj
    have hnd' := List.nodup_append.mp hnd
    obtain ⟨d1, h1, hs, hh, hfr⟩ := ih hnd'.1
      (fun p hp d' hd' hfr => hf p (by simp [hp]) d' hd' (fun a ha => hfr a (fun q hq hne => ha q (by simp [hq]) hne)))
      (fun p hp => hb p (by simp [hp])) (fun p hp q hq => hinj p (by simp [hp]) q (by simp [hq]))
    have hx : ∀ q ∈ L, q ≠ x := fun q hq => hnd'.2.2 q hq x (by simp)
    have hst := hf x (by simp) d1 hs (fun a ha => hfr a (fun q hq => ha q (by simp [hq]) (hx q hq)))
    have hbx := hb x (by simp)
    rw [Buf.wr_some (by rw [hs]; exact hbx)] at hst
    have hrun : (L ++ [x]).foldlM f d =
        some { d1 with get := fun y => if y = oa x then val x else d1.get y } := by
      rw [List.foldlM_append, h1]
      simp only [Option.bind_eq_bind, Option.bind_some, List.foldlM_cons, hst, List.foldlM_nil]
      rfl
    refine ⟨_, hrun, hs, ?_, ?_⟩
    · intro p hp
      rcases List.mem_append.mp hp with hp | hp
      · have : oa p ≠ oa x := fun he => hx p hp (hinj p (by simp [hp]) x (by simp) he)
        simp only [this, if_false]
        exact hh p hp
      · simp only [List.mem_singleton] at hp
        subst hp; simp
    · intro a ha
      have h1 := ha x (by simp)
      simp only [show ¬ a = oa x from fun h => h1 h.symm, if_false]
      exact hfr a (fun p hp => ha p (by simp [hp]))

end Mli
