import Verif.Lemmas.Axis

/-! # Loops over one slice along an axis -/

namespace Mli

open Spec

abbrev axisSq (axis : Int) (tin tout : Tensor) : List (JDim 2) := squashGeneric (axisDims axis (joint2 tin.dims tout.dims))

variable {axis : Int} {tin tout : Tensor} {S : List ((Fin 2 → Int) × List (List Int))}

theorem AxisSlices.inner' (h : AxisSlices axis tin tout S) {s : (Fin 2 → Int) × List (List Int)} (hs : s ∈ S) {σ : Type}
    (F : Int → Int → σ → Option σ) (x : σ) :
    nest4J (axisSq axis tin tout) (fun a => F (tin.base + s.1 0 + a 0) (tout.base + s.1 1 + a 1)) x =
      s.2.foldlM (fun x is => F (tin.addr is) (tout.addr is) x) x := by
  have := h.inner s hs σ (fun o => F (tin.base + o 0) (tout.base + o 1)) x
  simp only [← add_assoc] at this
  exact this

theorem foldlM_congr_mem {α σ : Type} {f g : σ → α → Option σ} : ∀ {L : List α} {x : σ}, (∀ (x : σ) (a : α), a ∈ L → f x a = g x a) →
    L.foldlM f x = L.foldlM g x := by
  intro L
  induction L with
  | nil => intro x _; rfl
  | cons a L ih =>
    intro x h
    rw [List.foldlM_cons, List.foldlM_cons, h x a (by simp)]
    congr 1; funext y
    exact ih fun x b hb => h x b (by simp [hb])

/-- Every address of the slice can be read. -/
def SliceIn (t : Tensor) (L : List (List Int)) (d : Buf) : Prop := ∀ is ∈ L, 0 ≤ t.addr is ∧ t.addr is < d.size

theorem sliceIn_of_valid {t : Tensor} {mem d : Buf} (h : t.Valid mem) (hd : d.size = mem.size) {L : List (List Int)}
    (hL : ∀ is ∈ L, InShape t.shape is) : SliceIn t L d := by
  intro is his
  rw [hd]
  exact h.inBounds (hL is his)

theorem foldlM_max {α : Type} (g : α → Int) : ∀ (L : List α) (v0 : Int),
    ∃ M, L.foldlM (fun mx a => (some (g a)).map fun v => maxFx mx v) v0 = some M ∧ v0 ≤ M ∧ (∀ a ∈ L, g a ≤ M) ∧
      (M = v0 ∨ ∃ a ∈ L, g a = M) := by
  intro L
  induction L with
  | nil => intro v0; exact ⟨v0, rfl, le_refl _, by simp, Or.inl rfl⟩
  | cons a L ih =>
    intro v0
    obtain ⟨M, h1, h2, h3, h4⟩ := ih (maxFx v0 (g a))
    have hm : maxFx v0 (g a) = max v0 (g a) := by unfold maxFx; split <;> omega
    refine ⟨M, ?_, by omega, ?_, ?_⟩
    · rw [List.foldlM_cons]
      simpa using h1
    · intro b hb
      rcases List.mem_cons.1 hb with rfl | hb
      · omega
      · exact h3 b hb
    · rcases h4 with h4 | ⟨b, hb, h4⟩
      · rcases (by omega : M = v0 ∨ g a = M) with h | h
        · exact Or.inl h
        · exact Or.inr ⟨a, by simp, h⟩
      · exact Or.inr ⟨b, by simp [hb], h4⟩

/-- The maximum of a slice. -/
theorem AxisSlices.max (h : AxisSlices axis tin tout S) {s : (Fin 2 → Int) × List (List Int)} (hs : s ∈ S) (d : Buf)
    (hin : SliceIn tin s.2 d) :
    ∃ M, softmaxMax (axisSq axis tin tout) (tin.base + s.1 0) d = some M ∧ (∀ is ∈ s.2, d.get (tin.addr is) ≤ M) ∧
      ∃ is ∈ s.2, d.get (tin.addr is) = M := by
  obtain ⟨i0, hi0, hf⟩ := h.first s hs
  have ea : tin.base + s.1 0 = tin.addr i0 := by rw [hf]; rfl
  obtain ⟨M, h1, h2, h3, h4⟩ := foldlM_max (fun is => d.get (tin.addr is)) s.2 (d.get (tin.addr i0))
  refine ⟨M, ?_, h3, ?_⟩
  · unfold softmaxMax
    have hr0 : d.rd (tin.base + s.1 0) = some (d.get (tin.addr i0)) := by rw [ea]; exact Buf.rd_some (hin i0 hi0)
    rw [hr0, Option.bind_some]
    refine (h.inner' hs (fun i _ mx => (d.rd i).map fun v => maxFx mx v) _).trans ?_
    rw [← h1]
    apply foldlM_congr_mem
    intro mx is his
    rw [Buf.rd_some (hin is his)]
  · rcases h4 with h4 | h4
    · exact ⟨i0, hi0, h4.symm⟩
    · exact h4

theorem foldlM_sum {α : Type} (E : α → Int) (B : Int) : ∀ (L : List α) (s : Int), (∀ a ∈ L, 0 ≤ E a ∧ E a ≤ B) → 0 ≤ s →
    s + L.length * B ≤ 2147483647 → L.foldlM (fun s a => macFx 32 s (E a) 1) s = some (s + (L.map E).sum) := by
  intro L
  induction L with
  | nil => intro s _ _ _; simp
  | cons a L ih =>
    intro s hE h0 hB
    have ha := hE a (by simp)
    have hlen : ((a :: L).length : Int) * B = L.length * B + B := by rw [List.length_cons]; push_cast; ring
    have hnn : 0 ≤ (L.length : Int) * B := Int.mul_nonneg (by omega) (by omega)
    have e3 : lo 32 = -2147483648 := by decide
    have e4 : hi 32 = 2147483647 := by decide
    rw [List.foldlM_cons, macFx, mul_one, ckd_some ⟨by omega, by omega⟩]
    have := ih (s + E a) (fun b hb => hE b (by simp [hb])) (by omega) (by omega)
    simp only [Option.bind_eq_bind, Option.bind_some, this, List.map_cons, List.sum_cons]
    congr 1; ring

/-- The sum over the output elements of a slice. -/
theorem AxisSlices.sumOut (h : AxisSlices axis tin tout S) {s : (Fin 2 → Int) × List (List Int)} (hs : s ∈ S) (d : Buf)
    (hin : SliceIn tout s.2 d) (E : List Int → Int) (B : Int) (hE : ∀ is ∈ s.2, d.get (tout.addr is) = E is ∧ 0 ≤ E is ∧ E is ≤ B)
    (hB : s.2.length * B ≤ 2147483647) :
    nest4J (axisSq axis tin tout) (fun a x => (d.rd (tout.base + s.1 1 + a 1)).bind fun e => macFx 32 x e 1) 0 = some (s.2.map E).sum := by
  refine (h.inner' hs (fun _ o x => (d.rd o).bind fun e => macFx 32 x e 1) 0).trans ?_
  rw [← zero_add (s.2.map E).sum, ← foldlM_sum E B s.2 0 (fun is his => (hE is his).2) (le_refl _) (by omega)]
  apply foldlM_congr_mem
  intro x is his
  rw [Buf.rd_some (hin is his), Option.bind_some, (hE is his).1]

/-- The sum over functions of the input elements of a slice. -/
theorem AxisSlices.sumIn (h : AxisSlices axis tin tout S) {s : (Fin 2 → Int) × List (List Int)} (hs : s ∈ S) (d : Buf)
    (hin : SliceIn tin s.2 d) (g : Int → Option Int) (E : List Int → Int) (B : Int)
    (hE : ∀ is ∈ s.2, g (d.get (tin.addr is)) = some (E is) ∧ 0 ≤ E is ∧ E is ≤ B) (hB : s.2.length * B ≤ 2147483647) :
    nest4J (axisSq axis tin tout) (fun a x => (d.rd (tin.base + s.1 0 + a 0)).bind fun v => (g v).bind fun e => macFx 32 x e 1) 0 =
      some (s.2.map E).sum := by
  refine (h.inner' hs (fun i _ x => (d.rd i).bind fun v => (g v).bind fun e => macFx 32 x e 1) 0).trans ?_
  rw [← zero_add (s.2.map E).sum, ← foldlM_sum E B s.2 0 (fun is his => (hE is his).2) (le_refl _) (by omega)]
  apply foldlM_congr_mem
  intro x is his
  rw [Buf.rd_some (hin is his), Option.bind_some, (hE is his).1, Option.bind_some]

/-- A function of every input element of a slice is stored in the output, possibly in place. -/
theorem AxisSlices.map (h : AxisSlices axis tin tout S) {s : (Fin 2 → Int) × List (List Int)} (hs : s ∈ S) (mem d : Buf)
    (ho : tout.Valid mem) (hd : d.size = mem.size) (hsh : tin.shape = tout.shape) (hsep : tin.Separate tout)
    (hin : SliceIn tin s.2 d) (hout : SliceIn tout s.2 d) (g : Int → Option Int) (E : List Int → Int)
    (hE : ∀ is ∈ s.2, g (d.get (tin.addr is)) = some (E is)) :
    ∃ d', nest4J (axisSq axis tin tout)
        (fun a d => (d.rd (tin.base + s.1 0 + a 0)).bind fun v => (g v).bind fun e => d.wr (tout.base + s.1 1 + a 1) e) d = some d' ∧
      Emits tout.addr E (· ∈ s.2) d d' := by
  obtain ⟨d', h1, h2⟩ := foldlM_inplace tout.addr E
    (fun d is => (d.rd (tin.addr is)).bind fun v => (g v).bind fun e => d.wr (tout.addr is) e) d s.2 (h.nodup hs)
    (by
      intro is his d' hd' hfr
      have hb : 0 ≤ tin.addr is ∧ tin.addr is < d'.size := by rw [hd']; exact hin is his
      rw [Buf.rd_some hb, Option.bind_some, hfr, hE is his, Option.bind_some]
      intro js hjs hne e
      refine hne (hsep is js (h.mem s hs is his) ?_ e.symm).symm
      rw [← hsh]; exact h.mem s hs js hjs)
    hout
    (by
      intro p hp q hq e
      exact Tensor.Separate.refl tout mem ho p q (by rw [← hsh]; exact h.mem s hs p hp) (by rw [← hsh]; exact h.mem s hs q hq) e)
  refine ⟨d', ?_, h2.size, h2.hit, h2.frame⟩
  exact (h.inner' hs (fun i o d => (d.rd i).bind fun v => (g v).bind fun e => d.wr o e) d).trans h1

/-- Every output element of a slice is replaced by a function of it. -/
theorem AxisSlices.update (h : AxisSlices axis tin tout S) {s : (Fin 2 → Int) × List (List Int)} (hs : s ∈ S) (mem d : Buf)
    (ho : tout.Valid mem) (hd : d.size = mem.size) (hsh : tin.shape = tout.shape)
    (hout : SliceIn tout s.2 d) (g : Int → Int) :
    ∃ d', nest4J (axisSq axis tin tout)
        (fun a d => (d.rd (tout.base + s.1 1 + a 1)).bind fun e => d.wr (tout.base + s.1 1 + a 1) (g e)) d = some d' ∧
      Emits tout.addr (fun is => g (d.get (tout.addr is))) (· ∈ s.2) d d' := by
  have hinj : ∀ p ∈ s.2, ∀ q ∈ s.2, tout.addr p = tout.addr q → p = q := by
    intro p hp q hq e
    exact Tensor.Separate.refl tout mem ho p q (by rw [← hsh]; exact h.mem s hs p hp) (by rw [← hsh]; exact h.mem s hs q hq) e
  obtain ⟨d', h1, h2⟩ := foldlM_inplace tout.addr (fun is => g (d.get (tout.addr is)))
    (fun d is => (d.rd (tout.addr is)).bind fun e => d.wr (tout.addr is) (g e)) d s.2 (h.nodup hs)
    (by
      intro is his d' hd' hfr
      have hb : 0 ≤ tout.addr is ∧ tout.addr is < d'.size := by rw [hd']; exact hout is his
      rw [Buf.rd_some hb, Option.bind_some, hfr]
      intro js hjs hne e
      exact hne (hinj js hjs is his e))
    hout hinj
  refine ⟨d', ?_, h2.size, h2.hit, h2.frame⟩
  exact (h.inner' hs (fun _ o d => (d.rd o).bind fun e => d.wr o (g e)) d).trans h1

/-- Two passes over the same elements. -/
theorem Emits.over {ι : Type} {addr v1 v2 : ι → Int} {P : ι → Prop} {d d1 d2 : Buf} (h1 : Emits addr v1 P d d1) (h2 : Emits addr v2 P d1 d2) :
    Emits addr v2 P d d2 :=
  ⟨h2.size.trans h1.size, h2.hit, fun a ha => (h2.frame a ha).trans (h1.frame a ha)⟩

theorem Emits.val_congr {ι : Type} {addr v1 v2 : ι → Int} {P : ι → Prop} {d d1 : Buf} (h1 : Emits addr v1 P d d1) (h : ∀ p, P p → v1 p = v2 p) :
    Emits addr v2 P d d1 :=
  ⟨h1.size, fun p hp => (h1.hit p hp).trans (h p hp), h1.frame⟩

/-- A largest element of a slice exists. -/
theorem slice_top (axis : Int) (shape : List Int) (g : List Int → Int) (is : List Int) (his : InShape shape is) :
    ∃ M, (∀ js ∈ slice axis shape is, g js ≤ M) ∧ ∃ js ∈ slice axis shape is, g js = M := by
  have hm : is ∈ slice axis shape is := List.mem_filter.2 ⟨mem_rowMajor.2 his, by simp [sameSlice]⟩
  obtain ⟨M, -, h2, h3, h4⟩ := foldlM_max g (slice axis shape is) (g is)
  refine ⟨M, h3, ?_⟩
  rcases h4 with h4 | h4
  · exact ⟨is, hm, h4.symm⟩
  · exact h4

end Mli
