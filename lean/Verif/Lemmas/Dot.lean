import Verif.Lemmas.Sum
import Verif.Model.Conv
import Verif.Props.Permute
import Verif.Lemmas.Map
import Verif.Lemmas.Emit
import Mathlib.Algebra.BigOperators.Intervals

/-! # Dot products and additives as sums -/

namespace Mli

open Spec

theorem macStep_adds {aw : Nat} {src wts : Buf} {p q x y B : Int} (hx : src.rd p = some x) (hy : wts.rd q = some y)
    (hB : |x * y| ≤ B) : Adds aw (macStep aw src wts p q) (x * y) B := by
  have e : macStep aw src wts p q = fun a => macFx aw a x y := by
    funext a; simp [macStep, hx, hy]
  rw [e]; exact Adds.mac hB

/-- The inner loop of the dot products, without the pointers. -/
theorem dotRow_eq (aw : Nat) (src wts : Buf) (p q ics kcs : Int) (n : Nat) (a : Int) :
    forRange n (fun _ (s : (Int × Int) × Int) =>
      (macStep aw src wts s.1.1 s.1.2 s.2).map fun a => ((s.1.1 + ics, s.1.2 + kcs), a)) ((p, q), a) =
    (forRange n (fun (k : Nat) a => macStep aw src wts (p + ics * k) (q + kcs * k) a) a).map
      fun a => ((p + ics * n, q + kcs * n), a) := by
  have := forRange_state n (fun _ (s : (Int × Int) × Int) =>
      (macStep aw src wts s.1.1 s.1.2 s.2).map fun a => ((s.1.1 + ics, s.1.2 + kcs), a))
    (fun (k : Nat) a => macStep aw src wts (p + ics * k) (q + kcs * k) a)
    (fun k => (p + ics * k, q + kcs * k)) (by
      intro i s
      simp only []
      congr 1; funext a; congr 2 <;> · push_cast; ring) a
  simpa using this

theorem dotRect_eq (aw : Nat) (src wts : Buf) (p q ics kcs irs' krs' : Int) (n h : Nat) (a : Int) :
    forRange h (fun _ (s : (Int × Int) × Int) =>
      (forRange n (fun _ (s : (Int × Int) × Int) =>
        (macStep aw src wts s.1.1 s.1.2 s.2).map fun a => ((s.1.1 + ics, s.1.2 + kcs), a)) s).map
      fun s => ((s.1.1 + irs', s.1.2 + krs'), s.2)) ((p, q), a) =
    (forRange h (fun (r : Nat) a => forRange n (fun (k : Nat) a =>
        macStep aw src wts (p + (irs' + ics * n) * r + ics * k) (q + (krs' + kcs * n) * r + kcs * k) a) a) a).map
      fun a => ((p + (irs' + ics * n) * h, q + (krs' + kcs * n) * h), a) := by
  have := forRange_state h (fun _ (s : (Int × Int) × Int) =>
      (forRange n (fun _ (s : (Int × Int) × Int) =>
        (macStep aw src wts s.1.1 s.1.2 s.2).map fun a => ((s.1.1 + ics, s.1.2 + kcs), a)) s).map
      fun s => ((s.1.1 + irs', s.1.2 + krs'), s.2))
    (fun (r : Nat) a => forRange n (fun (k : Nat) a =>
        macStep aw src wts (p + (irs' + ics * n) * r + ics * k) (q + (krs' + kcs * n) * r + kcs * k) a) a)
    (fun r => (p + (irs' + ics * n) * r, q + (krs' + kcs * n) * r)) (by
      intro i s
      simp only [dotRow_eq, Option.map_map]
      congr 1; funext a
      simp only [Function.comp]
      congr 2 <;> · push_cast; ring) a
  simpa using this

theorem dotprod2D_eq (aw : Nat) (src wts : Buf) (p q a W H ics irs kcs krs : Int) :
    dotprod2D aw src wts p q a W H ics irs kcs krs =
    forRange H.toNat (fun (r : Nat) a => forRange W.toNat (fun (k : Nat) a =>
        macStep aw src wts (p + irs * r + ics * k) (q + krs * r + kcs * k) a) a) a := by
  unfold dotprod2D
  simp only [dotRect_eq, Option.map_map]
  rw [show (fun (x : (Int × Int) × Int) => x.2) ∘ (fun a => ((p + (irs - W * ics + ics * (W.toNat : Int)) * (H.toNat : Int),
    q + (krs - W * kcs + kcs * (W.toNat : Int)) * (H.toNat : Int)), a)) = id from rfl, Option.map_id, id]
  rcases Int.lt_or_le W 1 with h | h
  · rw [show W.toNat = 0 by omega]; rfl
  · have e : (W.toNat : Int) = W := by omega
    simp only [e]
    simp only [show irs - W * ics + ics * W = irs by ring, show krs - W * kcs + kcs * W = krs by ring]

theorem dotprod3D_eq (aw : Nat) (src wts : Buf) (p q a W H C ics irs ichs kcs krs kchs : Int) (hH : 0 < H) :
    dotprod3D aw src wts p q a W H C ics irs ichs kcs krs kchs =
    forRange C.toNat (fun (c : Nat) a => forRange H.toNat (fun (r : Nat) a => forRange W.toNat (fun (k : Nat) a =>
        macStep aw src wts (p + ichs * c + irs * r + ics * k) (q + kchs * c + krs * r + kcs * k) a) a) a) a := by
  unfold dotprod3D
  simp only [if_neg (show ¬ H ≤ 0 by omega)]
  generalize hA : irs - W * ics + ics * (W.toNat : Int) = A
  generalize hB : krs - W * kcs + kcs * (W.toNat : Int) = B
  have := forRange_state C.toNat (fun _ (s : (Int × Int) × Int) =>
      (forRange H.toNat (fun _ (s : (Int × Int) × Int) =>
        (forRange W.toNat (fun _ (s : (Int × Int) × Int) =>
          (macStep aw src wts s.1.1 s.1.2 s.2).map fun a => ((s.1.1 + ics, s.1.2 + kcs), a)) s).map
        fun s => ((s.1.1 + (irs - W * ics), s.1.2 + (krs - W * kcs)), s.2)) s).map
      fun s => ((s.1.1 + (ichs - H * irs), s.1.2 + (kchs - H * krs)), s.2))
    (fun (c : Nat) a => forRange H.toNat (fun (r : Nat) a => forRange W.toNat (fun (k : Nat) a =>
        macStep aw src wts (p + (ichs - H * irs + A * H) * c + A * r + ics * k)
          (q + (kchs - H * krs + B * H) * c + B * r + kcs * k) a) a) a)
    (fun c => (p + (ichs - H * irs + A * H) * c, q + (kchs - H * krs + B * H) * c)) (by
      intro i s
      simp only [dotRect_eq, Option.map_map, hA, hB]
      congr 1; funext a
      simp only [Function.comp]
      have e : (H.toNat : Int) = H := by omega
      congr 2 <;> · rw [e]; push_cast; ring) a
  simp only [Nat.cast_zero, Int.mul_zero, Int.add_zero] at this
  rw [this, Option.map_map]
  rw [show (fun (x : (Int × Int) × Int) => x.2) ∘ (fun s => ((p + (ichs - H * irs + A * H) * (C.toNat : Int),
      q + (kchs - H * krs + B * H) * (C.toNat : Int)), s)) = id from rfl, Option.map_id, id]
  rcases Int.lt_or_le W 1 with h | h
  · rw [show W.toNat = 0 by omega]; rfl
  · have e : (W.toNat : Int) = W := by omega
    rw [e] at hA hB
    have hA' : A = irs := by rw [← hA]; ring
    have hB' : B = krs := by rw [← hB]; ring
    subst hA' hB'
    simp only [show ichs - H * A + A * H = ichs by ring, show kchs - H * B + B * H = kchs by ring]

/-- Sums over a box. -/
def boxSum (C H W : Nat) (f : Nat → Nat → Nat → Int) : Int :=
  ∑ c ∈ Finset.range C, ∑ r ∈ Finset.range H, ∑ k ∈ Finset.range W, f c r k

theorem loop3_adds {aw : Nat} (C H W : Nat) (g : Nat → Nat → Nat → Int → Option Int) (f : Nat → Nat → Nat → Int) (B : Int)
    (h : ∀ c r k, c < C → r < H → k < W → Adds aw (g c r k) (f c r k) B) :
    Adds aw (forRange C fun c => forRange H fun r => forRange W fun k => g c r k) (boxSum C H W f) (C * (H * (W * B))) :=
  Adds.forRange C _ _ _ fun c hc => Adds.forRange H _ _ _ fun r hr => Adds.forRange W _ _ _ fun k hk => h c r k hc hr hk

theorem dotprod3D_adds {aw : Nat} {src wts : Buf} {p q W H C ics irs ichs kcs krs kchs : Int} (hH : 0 < H)
    (X Y : Nat → Nat → Nat → Int) (B : Int)
    (hx : ∀ c r k : Nat, c < C.toNat → r < H.toNat → k < W.toNat → src.rd (p + ichs * c + irs * r + ics * k) = some (X c r k))
    (hy : ∀ c r k : Nat, c < C.toNat → r < H.toNat → k < W.toNat → wts.rd (q + kchs * c + krs * r + kcs * k) = some (Y c r k))
    (hB : ∀ c r k : Nat, c < C.toNat → r < H.toNat → k < W.toNat → |X c r k * Y c r k| ≤ B) :
    Adds aw (fun a => dotprod3D aw src wts p q a W H C ics irs ichs kcs krs kchs)
      (boxSum C.toNat H.toNat W.toNat fun c r k => X c r k * Y c r k) (C.toNat * (H.toNat * (W.toNat * B))) := by
  simp only [dotprod3D_eq _ _ _ _ _ _ _ _ _ _ _ _ _ _ _ hH]
  exact loop3_adds _ _ _ (fun c r k a => macStep aw src wts (p + ichs * c + irs * r + ics * k)
    (q + kchs * c + krs * r + kcs * k) a) _ B
    fun c r k hc hr hk => macStep_adds (hx c r k hc hr hk) (hy c r k hc hr hk) (hB c r k hc hr hk)

theorem dotprod2D_adds {aw : Nat} {src wts : Buf} {p q W H ics irs kcs krs : Int}
    (X Y : Nat → Nat → Int) (B : Int)
    (hx : ∀ r k : Nat, r < H.toNat → k < W.toNat → src.rd (p + irs * r + ics * k) = some (X r k))
    (hy : ∀ r k : Nat, r < H.toNat → k < W.toNat → wts.rd (q + krs * r + kcs * k) = some (Y r k))
    (hB : ∀ r k : Nat, r < H.toNat → k < W.toNat → |X r k * Y r k| ≤ B) :
    Adds aw (fun a => dotprod2D aw src wts p q a W H ics irs kcs krs)
      (∑ r ∈ Finset.range H.toNat, ∑ k ∈ Finset.range W.toNat, X r k * Y r k) (H.toNat * (W.toNat * B)) := by
  simp only [dotprod2D_eq]
  exact Adds.forRange _ (fun (r : Nat) a => forRange W.toNat (fun (k : Nat) a =>
        macStep aw src wts (p + irs * r + ics * k) (q + krs * r + kcs * k) a) a) _ _ fun r hr =>
      Adds.forRange _ (fun (k : Nat) a => macStep aw src wts (p + irs * r + ics * k) (q + krs * r + kcs * k) a) _ _
      fun k hk => macStep_adds (hx r k hr hk) (hy r k hr hk) (hB r k hr hk)

theorem winAcc_adds {aw : Nat} {src : Buf} {mul p R C rs cs : Int} (X : Nat → Nat → Int) (B : Int)
    (hx : ∀ r k : Nat, r < R.toNat → k < C.toNat → src.rd (p + rs * r + cs * k) = some (X r k))
    (hB : ∀ r k : Nat, r < R.toNat → k < C.toNat → |mul * X r k| ≤ B) :
    Adds aw (fun a => winAcc aw mul a src p R C rs cs)
      (∑ r ∈ Finset.range R.toNat, ∑ k ∈ Finset.range C.toNat, mul * X r k) (R.toNat * (C.toNat * B)) := by
  unfold winAcc
  refine Adds.forRange _ (fun (r : Nat) => forRange C.toNat (fun (c : Nat) acc =>
    (src.rd (p + (rs * r + cs * c))).bind fun x => macFx aw acc mul x)) _ _ fun r hr =>
      Adds.forRange _ (fun (c : Nat) acc => (src.rd (p + (rs * r + cs * c))).bind fun x => macFx aw acc mul x) _ _
      fun k hk => ?_
  have e := hx r k hr hk
  simp only [← Int.add_assoc, e, Option.bind_some]
  exact Adds.mac (hB r k hr hk)

theorem wAdd3D_adds {q : ConvQ} {wts : Buf} {p W H C cs rs chs : Int} (X : Nat → Nat → Nat → Int) (B : Int)
    (hz : wrap 16 (-q.zx) = -q.zx)
    (hx : ∀ c r k : Nat, c < C.toNat → r < H.toNat → k < W.toNat → wts.rd (p + chs * c + rs * r + cs * k) = some (X c r k))
    (hB : ∀ c r k : Nat, c < C.toNat → r < H.toNat → k < W.toNat → |-q.zx * X c r k| ≤ B) (hB0 : 0 ≤ B) :
    Adds q.aw (fun a => wAdd3D q wts p a W H C cs rs chs)
      (boxSum C.toNat H.toNat W.toNat fun c r k => -q.zx * X c r k) (C.toNat * (H.toNat * (W.toNat * B))) := by
  unfold wAdd3D
  by_cases h : q.zx = 0
  · simp only [h, ne_eq, not_true_eq_false, if_false]
    have : (boxSum C.toNat H.toNat W.toNat fun c r k => -0 * X c r k) = 0 := by simp [boxSum]
    rw [this]
    exact (Adds.id _).weaken (by positivity)
  · simp only [ne_eq, h, not_false_eq_true, if_true, hz]
    exact Adds.forRange _ (fun (c : Nat) acc => winAcc q.aw (-q.zx) acc wts (p + chs * c) H W rs cs) _ _ fun c hc =>
      winAcc_adds (X c) B (fun r k hr hk => hx c r k hc hr hk) (fun r k hr hk => hB c r k hc hr hk)

theorem wAdd2D_adds {q : ConvQ} {wts : Buf} {p W H cs rs : Int} (X : Nat → Nat → Int) (B : Int)
    (hz : wrap 16 (-q.zx) = -q.zx)
    (hx : ∀ r k : Nat, r < H.toNat → k < W.toNat → wts.rd (p + rs * r + cs * k) = some (X r k))
    (hB : ∀ r k : Nat, r < H.toNat → k < W.toNat → |-q.zx * X r k| ≤ B) (hB0 : 0 ≤ B) :
    Adds q.aw (fun a => wAdd2D q wts p a W H cs rs)
      (∑ r ∈ Finset.range H.toNat, ∑ k ∈ Finset.range W.toNat, -q.zx * X r k) (H.toNat * (W.toNat * B)) := by
  unfold wAdd2D
  by_cases h : q.zx = 0
  · simp only [h, ne_eq, not_true_eq_false, if_false]
    have : (∑ r ∈ Finset.range H.toNat, ∑ k ∈ Finset.range W.toNat, -0 * X r k) = 0 := by simp
    rw [this]
    exact (Adds.id _).weaken (by positivity)
  · simp only [ne_eq, h, not_false_eq_true, if_true, hz]
    exact winAcc_adds X B hx hB

theorem inAdd2D_adds {q : ConvQ} {src : Buf} {p W H cs rs : Int} (X : Nat → Nat → Int) (B : Int)
    (hz : wrap 16 (-q.zw) = -q.zw)
    (hx : ∀ r k : Nat, r < H.toNat → k < W.toNat → src.rd (p + rs * r + cs * k) = some (X r k))
    (hB : ∀ r k : Nat, r < H.toNat → k < W.toNat → |-q.zw * X r k| ≤ B) (hB0 : 0 ≤ B) :
    Adds q.aw (fun a => inAdd2D q src p a W H cs rs)
      (∑ r ∈ Finset.range H.toNat, ∑ k ∈ Finset.range W.toNat, -q.zw * X r k) (H.toNat * (W.toNat * B)) := by
  unfold inAdd2D
  by_cases h : q.zw = 0
  · simp only [h, ne_eq, not_true_eq_false, if_false]
    have : (∑ r ∈ Finset.range H.toNat, ∑ k ∈ Finset.range W.toNat, -0 * X r k) = 0 := by simp
    rw [this]
    exact (Adds.id _).weaken (by positivity)
  · simp only [ne_eq, h, not_false_eq_true, if_true, hz]
    exact winAcc_adds X B hx hB

theorem zpAdd_adds {q : ConvQ} (n : Int) : Adds q.aw (fun a => zpAdd q a n) (n.toNat * (q.zx * q.zw)) (n.toNat * |q.zx * q.zw|) := by
  unfold zpAdd
  by_cases h : q.zw ≠ 0 ∨ q.zx ≠ 0
  · simp only [if_pos h]
    have := Adds.forRange (aw := q.aw) n.toNat (fun _ a => macFx q.aw a q.zx q.zw) (fun _ => q.zx * q.zw) |q.zx * q.zw|
      fun _ _ => Adds.mac le_rfl
    simpa using this
  · simp only [if_neg h]
    push Not at h
    rw [h.1, h.2]
    simpa using Adds.id q.aw

/-! ## Clipped windows -/

theorem sum_clip (k : Nat) (t b : Int) (ht : 0 ≤ t) (hb : 0 ≤ b) (f : Nat → Int)
    (hz : ∀ i : Nat, i < k → ¬ (t ≤ i ∧ (i : Int) < k - b) → f i = 0) :
    ∑ i ∈ Finset.range k, f i = ∑ r ∈ Finset.range (k - t - b).toNat, f (t.toNat + r) := by
  have h1 := Finset.sum_Ico_eq_sum_range f t.toNat (k - b).toNat
  have e : ((k : Int) - b).toNat - t.toNat = ((k : Int) - t - b).toNat := by omega
  rw [e] at h1
  rw [← h1]
  symm
  apply Finset.sum_subset
  · intro i hi
    simp only [Finset.mem_Ico, Finset.mem_range] at hi ⊢
    omega
  · intro i hi hn
    simp only [Finset.mem_Ico, Finset.mem_range] at hi hn
    exact hz i hi (by omega)

theorem clip3 (kh kw ic : Nat) (t b l r : Int) (ht : 0 ≤ t) (hb : 0 ≤ b) (hl : 0 ≤ l) (hr : 0 ≤ r) (f : Nat → Nat → Nat → Int)
    (hz : ∀ i j c : Nat, i < kh → j < kw → ¬ ((t ≤ i ∧ (i : Int) < kh - b) ∧ (l ≤ j ∧ (j : Int) < kw - r)) → f i j c = 0) :
    ∑ i ∈ Finset.range kh, ∑ j ∈ Finset.range kw, ∑ c ∈ Finset.range ic, f i j c =
      boxSum ic (kh - t - b).toNat (kw - r - l).toNat fun c i j => f (t.toNat + i) (l.toNat + j) c := by
  rw [sum_clip kh t b ht hb (fun i => ∑ j ∈ Finset.range kw, ∑ c ∈ Finset.range ic, f i j c)]
  · unfold boxSum
    rw [Finset.sum_comm (s := Finset.range ic)]
    apply Finset.sum_congr rfl
    intro i hi
    rw [Finset.mem_range] at hi
    rw [sum_clip kw l r hl hr (fun j => ∑ c ∈ Finset.range ic, f (t.toNat + i) j c), Finset.sum_comm,
      show (kw : Int) - l - r = kw - r - l by ring]
    intro j hj hn
    apply Finset.sum_eq_zero
    intro c _
    exact hz _ _ c (by omega) hj (by omega)
  · intro i hi hn
    apply Finset.sum_eq_zero
    intro j hj
    apply Finset.sum_eq_zero
    intro c _
    exact hz i j c hi (Finset.mem_range.1 hj) (by omega)

theorem boxSum_congr {C H W : Nat} {f g : Nat → Nat → Nat → Int} (h : ∀ c r k, c < C → r < H → k < W → f c r k = g c r k) :
    boxSum C H W f = boxSum C H W g := by
  unfold boxSum
  apply Finset.sum_congr rfl; intro c hc
  apply Finset.sum_congr rfl; intro r hr
  apply Finset.sum_congr rfl; intro k hk
  exact h c r k (Finset.mem_range.1 hc) (Finset.mem_range.1 hr) (Finset.mem_range.1 hk)

theorem boxSum_add (C H W : Nat) (f g : Nat → Nat → Nat → Int) :
    boxSum C H W f + boxSum C H W g = boxSum C H W fun c r k => f c r k + g c r k := by
  simp only [boxSum, Finset.sum_add_distrib]

/-! ## Writing a three-dimensional output -/

/-- Loops over the positions of a three-dimensional tensor that store, at each position, a value that
does not depend on the output. -/
theorem loop3_laid (t : Tensor) (mem : Buf) (hb : ∀ is, InShape t.shape is → 0 ≤ t.addr is ∧ t.addr is < mem.size)
    (hinj : ∀ is js, InShape t.shape is → InShape t.shape js → t.addr is = t.addr js → is = js) {h w c : Dim} (e : t.dims = [h, w, c]) (val : List Int → Int)
    (f : Nat → Nat → Nat → Buf → Option Buf)
    (hf : ∀ y x k : Nat, (y : Int) < h.shape → (x : Int) < w.shape → (k : Int) < c.shape → ∀ d' : Buf, d'.size = mem.size →
      f y x k d' = d'.wr (t.addr [y, x, k]) (val [y, x, k])) :
    ∃ mem', forRange h.shape.toNat (fun y => forRange w.shape.toNat (fun x => forRange c.shape.toNat (fun k => f y x k))) mem
      = some mem' ∧ t.Writes val mem mem' := by
  have so : t.shape = [h.shape, w.shape, c.shape] := by simp [Tensor.shape, e]
  let ad : Nat × Nat × Nat → Int := fun p => t.addr [(p.1 : Int), (p.2.1 : Int), (p.2.2 : Int)]
  let vl : Nat × Nat × Nat → Int := fun p => val [(p.1 : Int), (p.2.1 : Int), (p.2.2 : Int)]
  let ok : Nat × Nat × Nat → Prop := fun p => (p.1 : Int) < h.shape ∧ (p.2.1 : Int) < w.shape ∧ (p.2.2 : Int) < c.shape
  have inS : ∀ p, ok p → InShape t.shape [(p.1 : Int), (p.2.1 : Int), (p.2.2 : Int)] := by
    rintro ⟨a, b, k⟩ ⟨h1, h2, h3⟩
    rw [so]
    refine ⟨⟨by simp, h1⟩, ⟨by simp, h2⟩, ⟨by simp, h3⟩, trivial⟩
  have hc : Coherent ad vl ok := by
    intro p q hp hq e
    have := hinj _ _ (inS p hp) (inS q hq) e
    show val _ = val _
    rw [this]
  obtain ⟨d', h1, h2⟩ := forRange_emits hc h.shape.toNat
    (fun y => forRange w.shape.toNat (fun x => forRange c.shape.toNat (fun k => f y x k)))
    (fun y p => p.1 = y ∧ ok p) mem (fun _ _ _ hp => hp.2) (by
      intro y d1 hy hd1
      obtain ⟨d2, a1, a2⟩ := forRange_emits hc w.shape.toNat (fun x => forRange c.shape.toNat (fun k => f y x k))
        (fun x p => p.1 = y ∧ p.2.1 = x ∧ ok p) d1 (fun _ _ _ hp => hp.2.2) (by
          intro x d2 hx hd2
          obtain ⟨d3, b1, b2⟩ := forRange_emits hc c.shape.toNat (fun k => f y x k)
            (fun k p => p = (y, x, k)) d2 (by
              rintro k p hk rfl
              exact ⟨by simp only []; omega, by simp only []; omega, by simp only []; omega⟩) (by
              intro k d3 hk hd3
              rw [hf y x k (by omega) (by omega) (by omega) d3 (by omega)]
              have okk : ok (y, x, k) := ⟨by simp only []; omega, by simp only []; omega, by simp only []; omega⟩
              have := hb _ (inS (y, x, k) okk)
              exact Emits.one ad vl (y, x, k) d3 (by
                show 0 ≤ t.addr _ ∧ t.addr _ < _
                simp only [] at this ⊢; omega))
          refine ⟨d3, b1, b2.congr ?_⟩
          rintro ⟨p1, p2, p3⟩
          constructor
          · rintro ⟨k, hk, e⟩
            simp only [Prod.mk.injEq] at e
            obtain ⟨rfl, rfl, rfl⟩ := e
            exact ⟨rfl, rfl, by simp only []; omega, by simp only []; omega, by simp only []; omega⟩
          · rintro ⟨e1, e2, h1, h2, h3⟩
            simp only [] at e1 e2 h1 h2 h3
            exact ⟨p3, by omega, by rw [e1, e2]⟩)
      refine ⟨d2, a1, a2.congr ?_⟩
      rintro ⟨p1, p2, p3⟩
      constructor
      · rintro ⟨x, hx, e1, e2, o⟩; exact ⟨e1, o⟩
      · rintro ⟨e1, o⟩
        refine ⟨p2, ?_, e1, rfl, o⟩
        have := o.2.1
        simp only [] at this; omega)
  refine ⟨d', h1, h2.size, ?_, ?_⟩
  · intro is his
    rw [so] at his
    match is, his with
    | [y, x, k], ⟨⟨y0, y1⟩, ⟨x0, x1⟩, ⟨k0, k1⟩, _⟩ =>
      obtain ⟨y, rfl⟩ := Int.eq_ofNat_of_zero_le y0
      obtain ⟨x, rfl⟩ := Int.eq_ofNat_of_zero_le x0
      obtain ⟨k, rfl⟩ := Int.eq_ofNat_of_zero_le k0
      exact h2.hit (y, x, k) ⟨y, by omega, rfl, y1, x1, k1⟩
  · intro a ha
    apply h2.frame
    rintro p ⟨y, hy, e, o⟩
    exact ha _ (inS p o)

theorem loop3_writes (t : Tensor) (mem : Buf) (hv : t.Valid mem) {h w c : Dim} (e : t.dims = [h, w, c]) (val : List Int → Int)
    (f : Nat → Nat → Nat → Buf → Option Buf)
    (hf : ∀ y x k : Nat, (y : Int) < h.shape → (x : Int) < w.shape → (k : Int) < c.shape → ∀ d' : Buf, d'.size = mem.size →
      f y x k d' = d'.wr (t.addr [y, x, k]) (val [y, x, k])) :
    ∃ mem', forRange h.shape.toNat (fun y => forRange w.shape.toNat (fun x => forRange c.shape.toNat (fun k => f y x k))) mem
      = some mem' ∧ t.Writes val mem mem' :=
  loop3_laid t mem (fun _ hi => hv.inBounds hi)
    (fun is js hi hj e => c09_accepted_no_alias t hv.accepted is js hi hj (by unfold Tensor.addr at e; omega)) e val f hf

end Mli
