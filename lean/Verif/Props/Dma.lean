import Verif.Model.Dma
import Verif.Lemmas.Mem
import Verif.Lemmas.Math

/-! # C18, C19, C20: DMA channel pool, handles and callbacks -/

namespace Mli.Dma

/-! ## Specification vocabulary -/

/-- A handle variable currently holds an acquired handle. -/
def Sys.Live (s : Sys) (id : Nat) : Prop := (s.handles id).state ≠ .invalid

instance (s : Sys) (id : Nat) : Decidable (s.Live id) := by unfold Sys.Live; infer_instance

/-- Channel `j` belongs to handle variable `id`. -/
def Sys.Owns (s : Sys) (id : Nat) (j : Int) : Prop :=
  s.Live id ∧ (s.handles id).ch ≤ j ∧ j < (s.handles id).ch + (s.handles id).num

/-- Documented use of the API: the pool is configured while no handle is held; only free handle
variables are acquired into, with at least one channel; callbacks are registered and transfers
started on held handles. -/
def Op.Ok (s : Sys) : Op → Prop
  | .config _ _ => ∀ id, ¬ s.Live id
  | .acquire id n => ¬ s.Live id ∧ 1 ≤ n
  | .release _ => True
  | .register id _ => s.Live id
  | .start id => s.Live id
  | .sync => True

/-- Every call of the history obeys `Op.Ok` in the state in which it is made. -/
def Disciplined : Sys → List Op → Prop
  | _, [] => True
  | s, op :: ops => Op.Ok s op ∧ ∀ s' l, exec s op = some (s', l) → Disciplined s' ops

/-- The callback most recently registered through handle variable `id` since it was last
acquired or released, according to the call history. -/
def lastReg (id : Nat) : List Op → Option Cb → Option Cb
  | [], c => c
  | .acquire i _ :: ops, c => lastReg id ops (if i = id then none else c)
  | .release i :: ops, c => lastReg id ops (if i = id then none else c)
  | .register i cb :: ops, c => lastReg id ops (if i = id then some cb else c)
  | _ :: ops, c => lastReg id ops c

/-! ## Lemmas -/

theorem disc_cons {s s' : Sys} {op : Op} {ops : List Op} {l : List Cb} (ok : Op.Ok s op)
    (e : exec s op = some (s', l)) (h : Disciplined s' ops) : Disciplined s (op :: ops) := by
  refine ⟨ok, fun t m ht => ?_⟩
  rw [e] at ht
  simp only [Option.some.injEq, Prod.mk.injEq] at ht
  rw [← ht.1]; exact h

theorem fill_eq (p : Pool) (ch n : Int) (st : ChSt) (p' : Pool) :
    p.fill ch n st = some p' ↔ (n ≤ 0 ∨ (0 ≤ ch ∧ ch + n ≤ maxDmaChan)) ∧
      p' = { p with status := fun j => if ch ≤ j ∧ j < ch + n then st else p.status j } := by
  have key : ∀ m : Nat, ∀ p', forRange m (fun k p => Pool.wr p (ch + k) st) p = some p' ↔
      (m = 0 ∨ (0 ≤ ch ∧ ch + m ≤ maxDmaChan)) ∧
      p' = { p with status := fun j => if ch ≤ j ∧ j < ch + m then st else p.status j } := by
    intro m
    induction m with
    | zero =>
      intro p'
      simp only [forRange, Option.some.injEq, true_or, true_and, Nat.cast_zero, Int.add_zero]
      have : (fun j => if ch ≤ j ∧ j < ch then st else p.status j) = p.status := by
        funext j; rw [if_neg (by omega)]
      simp only [this]
      exact ⟨fun h => h.symm, fun h => h.symm⟩
    | succ m ih =>
      intro p'
      rw [forRange]
      simp only [Option.bind_eq_some_iff, ih]
      constructor
      · rintro ⟨q, ⟨hm, rfl⟩, hw⟩
        unfold Pool.wr at hw
        split at hw
        · rename_i hr
          simp only [Option.some.injEq] at hw
          refine ⟨Or.inr ⟨by omega, by push_cast; omega⟩, ?_⟩
          rw [← hw]
          congr 1
          funext j
          push_cast
          by_cases h1 : j = ch + m
          · rw [if_pos h1, if_pos (by omega)]
          · rw [if_neg h1]
            by_cases h2 : ch ≤ j ∧ j < ch + m
            · rw [if_pos h2, if_pos (by omega)]
            · rw [if_neg h2, if_neg (by omega)]
        · simp at hw
      · rintro ⟨hm, rfl⟩
        have hm' : 0 ≤ ch ∧ ch + (m + 1) ≤ maxDmaChan := by
          rcases hm with h | h
          · exact absurd h (Nat.succ_ne_zero m)
          · push_cast at h; exact h
        refine ⟨_, ⟨by omega, rfl⟩, ?_⟩
        unfold Pool.wr
        rw [if_pos (by omega)]
        simp only [Option.some.injEq]
        congr 1
        funext j
        push_cast
        by_cases h1 : j = ch + m
        · rw [if_pos h1, if_pos (by omega)]
        · rw [if_neg h1]
          by_cases h2 : ch ≤ j ∧ j < ch + m
          · rw [if_pos h2, if_pos (by omega)]
          · rw [if_neg h2, if_neg (by omega)]
  unfold Pool.fill
  rw [key]
  by_cases hn : 0 ≤ n
  · have : (n.toNat : Int) = n := by omega
    rw [this]
    constructor
    · rintro ⟨h, e⟩; exact ⟨by omega, e⟩
    · rintro ⟨h, e⟩; exact ⟨by omega, e⟩
  · have h0 : n.toNat = 0 := by omega
    rw [h0]
    have : (fun j => if ch ≤ j ∧ j < ch + ((0 : Nat) : Int) then st else p.status j) =
        (fun j => if ch ≤ j ∧ j < ch + n then st else p.status j) := by
      funext j; rw [if_neg (by push_cast; omega), if_neg (by omega)]
    rw [this]
    constructor
    · rintro ⟨h, e⟩; exact ⟨by omega, e⟩
    · rintro ⟨h, e⟩; exact ⟨by omega, e⟩

theorem allAvailable_some (p : Pool) (i n : Int) (b : Bool) (h : allAvailable p i n = some b) :
    (n ≤ 0 ∨ (0 ≤ i ∧ i + n ≤ maxDmaChan)) ∧
    (b = true ↔ ∀ j, i ≤ j → j < i + n → p.status j = .available) := by
  have key : ∀ (m : Nat) b, forRange m (fun k found => do return found && ((← p.rd (i + k)) == .available)) true
      = some b → (m = 0 ∨ (0 ≤ i ∧ i + m ≤ maxDmaChan)) ∧
        (b = true ↔ ∀ j, i ≤ j → j < i + m → p.status j = .available) := by
    intro m
    induction m with
    | zero =>
      intro b h
      simp only [forRange, Option.some.injEq] at h
      subst h
      refine ⟨Or.inl rfl, ?_⟩
      simp only [true_iff]
      intro j h1 h2; push_cast at h2; omega
    | succ m ih =>
      intro b h
      rw [forRange] at h
      simp only [Option.bind_eq_some_iff, Option.bind_eq_bind, Option.pure_def] at h
      obtain ⟨b', hb', c, hc, h⟩ := h
      obtain ⟨h1, h2⟩ := ih b' hb'
      unfold Pool.rd at hc
      split at hc
      · rename_i hr
        simp only [Option.some.injEq] at hc h
        refine ⟨Or.inr ⟨by omega, by push_cast; omega⟩, ?_⟩
        rw [← h, Bool.and_eq_true, h2, beq_iff_eq, ← hc]
        constructor
        · rintro ⟨x, y⟩ j hj1 hj2
          by_cases hj : j = i + m
          · rw [hj]; exact y
          · exact x j hj1 (by push_cast at hj2; omega)
        · intro x
          exact ⟨fun j hj1 hj2 => x j hj1 (by push_cast; omega), x _ (by omega) (by push_cast; omega)⟩
      · simp at hc
  obtain ⟨h1, h2⟩ := key _ _ h
  by_cases hn : 0 ≤ n
  · have : (n.toNat : Int) = n := by omega
    rw [this] at h1 h2
    exact ⟨by omega, h2⟩
  · have h0 : n.toNat = 0 := by omega
    rw [h0] at h1 h2
    refine ⟨by omega, h2.trans ?_⟩
    constructor
    · intro _ j hj1 hj2; omega
    · intro _ j hj1 hj2; push_cast at hj2; omega

theorem allAvailable_defined (p : Pool) (i n : Int) (h : n ≤ 0 ∨ (0 ≤ i ∧ i + n ≤ maxDmaChan)) :
    ∃ b, allAvailable p i n = some b := by
  obtain ⟨s, h1, _⟩ := forRange_inv (n := n.toNat)
    (f := fun k found => do return found && ((← p.rd (i + k)) == .available)) (s := true)
    (fun _ _ => True) trivial (by
      intro k s hk _
      have hr : p.rd (i + k) = some (p.status (i + k)) := by
        unfold Pool.rd; rw [if_pos (by omega)]
      exact ⟨_, by simp only [hr]; rfl, trivial⟩)
  exact ⟨s, h1⟩

/-- What the search returns. -/
theorem search_some (p : Pool) (n : Int) : ∀ (fuel : Nat) (i : Int) (r : Option Int),
    search p n fuel i = some r →
    (∀ j, r = some j → i ≤ j ∧ j < i + fuel ∧ (n ≤ 0 ∨ (0 ≤ j ∧ j + n ≤ maxDmaChan)) ∧
      (∀ k, j ≤ k → k < j + n → p.status k = .available) ∧
      (∀ j', i ≤ j' → j' < j → ∃ k, j' ≤ k ∧ k < j' + n ∧ p.status k ≠ .available)) ∧
    (r = none → ∀ j', i ≤ j' → j' < i + fuel → ∃ k, j' ≤ k ∧ k < j' + n ∧ p.status k ≠ .available) := by
  intro fuel
  induction fuel with
  | zero =>
    intro i r h
    simp only [search, Option.some.injEq] at h
    subst h
    refine ⟨by simp, ?_⟩
    intro _ j' h1 h2; push_cast at h2; omega
  | succ f ih =>
    intro i r h
    rw [search] at h
    simp only [Option.bind_eq_bind, Option.bind_eq_some_iff] at h
    obtain ⟨b, hb, h⟩ := h
    obtain ⟨hdef, hiff⟩ := allAvailable_some p i n b hb
    split at h
    · rename_i hbt
      simp only [Option.pure_def, Option.some.injEq] at h
      subst h
      refine ⟨?_, by simp⟩
      intro j hj
      simp only [Option.some.injEq] at hj
      subst hj
      exact ⟨by omega, by push_cast; omega, hdef, hiff.mp hbt, fun j' h1 h2 => by omega⟩
    · rename_i hbt
      have hno : ∃ k, i ≤ k ∧ k < i + n ∧ p.status k ≠ .available := by
        by_contra hc
        apply hbt
        rw [hiff]
        intro j h1 h2
        by_contra h3
        exact hc ⟨j, h1, h2, h3⟩
      obtain ⟨h1, h2⟩ := ih (i + 1) r h
      refine ⟨?_, ?_⟩
      · intro j hj
        obtain ⟨a, b', c, d, e⟩ := h1 j hj
        refine ⟨by omega, by push_cast; omega, c, d, ?_⟩
        intro j' hj1 hj2
        by_cases hji : j' = i
        · subst hji; exact hno
        · exact e j' (by omega) hj2
      · intro hr j' hj1 hj2
        by_cases hji : j' = i
        · subst hji; exact hno
        · exact h2 hr j' (by omega) (by push_cast at hj2; omega)

theorem search_defined (p : Pool) (n : Int) : ∀ (fuel : Nat) (i : Int),
    (n ≤ 0 ∨ (0 ≤ i ∧ i + fuel + n - 1 ≤ maxDmaChan)) → ∃ r, search p n fuel i = some r := by
  intro fuel
  induction fuel with
  | zero => intro i _; exact ⟨none, rfl⟩
  | succ f ih =>
    intro i h
    obtain ⟨b, hb⟩ := allAvailable_defined p i n (by push_cast at h; omega)
    rw [search, hb]
    cases b with
    | true => exact ⟨some i, rfl⟩
    | false =>
      obtain ⟨r, hr⟩ := ih (i + 1) (by push_cast at h; omega)
      exact ⟨r, by simpa using hr⟩

/-- What a defined acquire does. -/
theorem acquire_some {p p' : Pool} {n : Int} {r : Option Handle} (h : acquire p n = some (p', r)) :
    (∀ hd, r = some hd → hd.num = n ∧ hd.state = .opened ∧ p.base ≤ hd.ch ∧ hd.ch < p.base + p.size ∧
      (n ≤ 0 ∨ (0 ≤ hd.ch ∧ hd.ch + n ≤ maxDmaChan)) ∧
      (∀ k, hd.ch ≤ k → k < hd.ch + n → p.status k = .available) ∧
      (∀ j', p.base ≤ j' → j' < hd.ch → ∃ k, j' ≤ k ∧ k < j' + n ∧ p.status k ≠ .available) ∧
      p' = { p with status := fun j => if hd.ch ≤ j ∧ j < hd.ch + n then .inUse else p.status j }) ∧
    (r = none → p' = p ∧ ∀ j', p.base ≤ j' → j' < p.base + p.size →
      ∃ k, j' ≤ k ∧ k < j' + n ∧ p.status k ≠ .available) := by
  unfold acquire at h
  simp only [Option.bind_eq_bind, Option.bind_eq_some_iff] at h
  obtain ⟨o, ho, h⟩ := h
  obtain ⟨h1, h2⟩ := search_some p n _ _ _ ho
  cases o with
  | none =>
    simp only [Option.pure_def, Option.some.injEq, Prod.mk.injEq] at h
    obtain ⟨rfl, rfl⟩ := h
    refine ⟨by simp, fun _ => ⟨rfl, ?_⟩⟩
    intro j' a b
    exact h2 rfl j' a (by omega)
  | some i =>
    simp only [Option.bind_eq_some_iff, Option.pure_def, Option.some.injEq, Prod.mk.injEq] at h
    obtain ⟨q, hq, rfl, rfl⟩ := h
    refine ⟨?_, by simp⟩
    intro hd hhd
    simp only [Option.some.injEq] at hhd
    subst hhd
    obtain ⟨a, b, c, d, e⟩ := h1 i rfl
    rw [fill_eq] at hq
    exact ⟨rfl, rfl, a, by simp only; omega, c, d, e, hq.2⟩

/-- State invariant under disciplined use. -/
structure Inv (s : Sys) : Prop where
  range : ∀ id, s.Live id → 1 ≤ (s.handles id).num ∧ 0 ≤ (s.handles id).ch ∧
    (s.handles id).ch + (s.handles id).num ≤ maxDmaChan
  owned : ∀ id j, s.Owns id j → s.pool.status j = .inUse
  disjoint : ∀ id1 id2 j, s.Owns id1 j → s.Owns id2 j → id1 = id2
  dead : ∀ id, ¬ s.Live id → s.handles id = { ch := 0, num := 0, state := .invalid }
  used : ∀ j, s.pool.status j = .inUse → ∃ id, s.Owns id j

theorem inv_init : Inv Sys.init := by
  have hl : ∀ id, ¬ Sys.init.Live id := fun id h => h rfl
  exact ⟨fun id h => absurd h (hl id), fun id j h => absurd h.1 (hl id),
    fun id1 _ j h => absurd h.1 (hl id1), fun id _ => rfl, fun j h => by simp [Sys.init, Pool.init] at h⟩

/-- Handles after `setHandle`. -/
theorem handles_set (s : Sys) (id : Nat) (h : Handle) (j : Nat) :
    (s.setHandle id h).handles j = if j = id then h else s.handles j := rfl

theorem release_pool {p p' : Pool} {h h' : Handle} (e : release p h = some (p', h')) :
    p' = { p with status := fun j => if h.ch ≤ j ∧ j < h.ch + h.num then .available else p.status j } ∧
    h' = { ch := 0, num := 0, state := .invalid } := by
  unfold release at e
  simp only [Option.bind_eq_bind, Option.bind_eq_some_iff, Option.pure_def, Option.some.injEq,
    Prod.mk.injEq] at e
  obtain ⟨q, hq, rfl, rfl⟩ := e
  rw [fill_eq] at hq
  exact ⟨hq.2, rfl⟩

/-- A zero-channel acquire/release pair leaves the pool as it is. -/
theorem sync_pool {s s' : Sys} {l : List Cb} (e : exec s .sync = some (s', l)) :
    s'.pool = s.pool ∧ s'.handles = s.handles ∧ s'.cbs = s.cbs := by
  unfold exec at e
  simp only [Option.bind_eq_bind, Option.bind_eq_some_iff] at e
  obtain ⟨⟨p, h⟩, ha, e⟩ := e
  obtain ⟨h1, h2⟩ := acquire_some ha
  cases h with
  | none =>
    simp only [Option.pure_def, Option.some.injEq, Prod.mk.injEq] at e
    obtain ⟨rfl, rfl⟩ := e
    exact ⟨(h2 rfl).1, rfl, rfl⟩
  | some hd =>
    simp only [Option.bind_eq_some_iff, Option.pure_def, Option.some.injEq, Prod.mk.injEq] at e
    obtain ⟨c, hc, ⟨p', h'⟩, hr, rfl, rfl⟩ := e
    obtain ⟨a, b, c', d, e', f, g, i⟩ := h1 hd rfl
    obtain ⟨r1, r2⟩ := release_pool hr
    refine ⟨?_, rfl, rfl⟩
    simp only
    rw [r1, i, a]
    cases s.pool
    simp only [Pool.mk.injEq, true_and]
    funext j
    rw [if_neg (by omega), if_neg (by omega)]

theorem inv_of_same {s s' : Sys} (h : Inv s) (hp : s'.pool = s.pool) (hh : s'.handles = s.handles) : Inv s' := by
  obtain ⟨p, c, hs⟩ := s
  obtain ⟨p', c', hs'⟩ := s'
  simp only at hp hh
  subst hp; subst hh
  exact ⟨h.range, h.owned, h.disjoint, h.dead, h.used⟩

theorem inv_exec {s s' : Sys} {op : Op} {l : List Cb} (h : Inv s) (hok : Op.Ok s op)
    (e : exec s op = some (s', l)) : Inv s' := by
  cases op with
  | config off n =>
    unfold exec at e
    simp only [Option.bind_eq_bind, Option.bind_eq_some_iff, Option.pure_def, Option.some.injEq,
      Prod.mk.injEq] at e
    obtain ⟨p, hp, rfl, rfl⟩ := e
    unfold setNumDmaCh at hp
    rw [fill_eq] at hp
    have hl : ∀ id, ¬ Sys.Live { s with pool := p } id := hok
    refine ⟨fun id h => absurd h (hl id), fun id j h => absurd h.1 (hl id),
      fun id1 _ j h => absurd h.1 (hl id1), fun id hd => h.dead id hd, ?_⟩
    intro j hj
    rw [hp.2] at hj
    simp only at hj
    split at hj
    · simp at hj
    · obtain ⟨id, hid⟩ := h.used j hj
      exact absurd hid.1 (hok id)
  | acquire id n =>
    obtain ⟨hok1, hok2⟩ := hok
    unfold exec at e
    simp only [Option.bind_eq_bind, Option.bind_eq_some_iff] at e
    obtain ⟨⟨p, r⟩, ha, e⟩ := e
    obtain ⟨h1, h2⟩ := acquire_some ha
    cases r with
    | none =>
      simp only [Option.pure_def, Option.some.injEq, Prod.mk.injEq] at e
      obtain ⟨rfl, rfl⟩ := e
      exact inv_of_same h (h2 rfl).1 rfl
    | some hd =>
      simp only [Option.pure_def, Option.some.injEq, Prod.mk.injEq] at e
      obtain ⟨rfl, rfl⟩ := e
      obtain ⟨a, b, c, d, e', f, g, i⟩ := h1 hd rfl
      have hlive : ∀ j, Sys.Live (Sys.setHandle { s with pool := p } id hd) j ↔ j = id ∨ s.Live j := by
        intro j
        unfold Sys.Live
        rw [handles_set]
        by_cases hj : j = id
        · simp [hj, b]
        · simp [hj]
      have hown : ∀ k j, Sys.Owns (Sys.setHandle { s with pool := p } id hd) k j ↔
          (k = id ∧ hd.ch ≤ j ∧ j < hd.ch + n) ∨ (k ≠ id ∧ s.Owns k j) := by
        intro k j
        unfold Sys.Owns
        rw [hlive, handles_set]
        by_cases hk : k = id
        · subst hk; simp only [true_or, if_true, true_and, ne_eq, not_true_eq_false, false_and, or_false, a]
        · simp [hk]
      refine ⟨?_, ?_, ?_, ?_, ?_⟩
      · intro j hj
        rw [hlive] at hj
        rw [handles_set]
        by_cases hj' : j = id
        · rw [if_pos hj', a]; omega
        · rw [if_neg hj']; exact h.range j (hj.resolve_left hj')
      · intro k j hk
        rw [hown] at hk
        show p.status j = _
        rw [i]
        simp only
        rcases hk with ⟨_, hj⟩ | ⟨_, hk⟩
        · rw [if_pos hj]
        · split
          · rfl
          · exact h.owned k j hk
      · intro k1 k2 j hk1 hk2
        rw [hown] at hk1 hk2
        rcases hk1 with ⟨e1, hj1⟩ | ⟨n1, o1⟩ <;> rcases hk2 with ⟨e2, hj2⟩ | ⟨n2, o2⟩
        · rw [e1, e2]
        · have := h.owned k2 j o2
          rw [f j hj1.1 hj1.2] at this; simp at this
        · have := h.owned k1 j o1
          rw [f j hj2.1 hj2.2] at this; simp at this
        · exact h.disjoint k1 k2 j o1 o2
      · intro j hj
        rw [hlive] at hj
        rw [handles_set, if_neg (fun e => hj (Or.inl e))]
        exact h.dead j (fun e => hj (Or.inr e))
      · intro j hj
        have hj' : p.status j = .inUse := hj
        rw [i] at hj'
        simp only at hj'
        split at hj'
        · rename_i hr
          exact ⟨id, (hown id j).mpr (Or.inl ⟨rfl, hr⟩)⟩
        · obtain ⟨k, hk⟩ := h.used j hj'
          refine ⟨k, (hown k j).mpr (Or.inr ⟨?_, hk⟩)⟩
          rintro rfl
          exact hok1 hk.1
  | release id =>
    unfold exec at e
    simp only [Option.bind_eq_bind, Option.bind_eq_some_iff, Option.pure_def, Option.some.injEq,
      Prod.mk.injEq] at e
    obtain ⟨⟨p, hd⟩, hr, rfl, rfl⟩ := e
    obtain ⟨r1, r2⟩ := release_pool hr
    subst r2
    simp only
    have hlive : ∀ j, Sys.Live (Sys.setHandle { s with pool := p } id ⟨0, 0, .invalid⟩) j ↔ j ≠ id ∧ s.Live j := by
      intro j
      unfold Sys.Live
      rw [handles_set]
      by_cases hj : j = id
      · simp [hj]
      · simp [hj]
    have hown : ∀ k j, Sys.Owns (Sys.setHandle { s with pool := p } id ⟨0, 0, .invalid⟩) k j ↔
        (k ≠ id ∧ s.Owns k j) := by
      intro k j
      unfold Sys.Owns
      rw [hlive, handles_set]
      by_cases hk : k = id
      · subst hk; simp
      · simp [hk]
    refine ⟨?_, ?_, ?_, ?_, ?_⟩
    · intro j hj
      rw [hlive] at hj
      rw [handles_set, if_neg hj.1]
      exact h.range j hj.2
    · intro k j hk
      rw [hown] at hk
      show p.status j = _
      rw [r1]
      simp only
      split
      · rename_i hr2
        exfalso
        by_cases hli : s.Live id
        · exact hk.1 (h.disjoint k id j hk.2 ⟨hli, hr2.1, hr2.2⟩)
        · rw [h.dead id hli] at hr2; simp only at hr2; omega
      · exact h.owned k j hk.2
    · intro k1 k2 j hk1 hk2
      rw [hown] at hk1 hk2
      exact h.disjoint k1 k2 j hk1.2 hk2.2
    · intro j hj
      rw [hlive] at hj
      rw [handles_set]
      by_cases hj' : j = id
      · rw [if_pos hj']
      · rw [if_neg hj']; exact h.dead j (fun e => hj ⟨hj', e⟩)
    · intro j hj
      have hj' : p.status j = .inUse := hj
      rw [r1] at hj'
      simp only at hj'
      split at hj'
      · simp at hj'
      · rename_i hn
        obtain ⟨k, hk⟩ := h.used j hj'
        refine ⟨k, (hown k j).mpr ⟨?_, hk⟩⟩
        rintro rfl
        exact hn ⟨hk.2.1, hk.2.2⟩
  | register id cb =>
    unfold exec at e
    simp only [Option.bind_eq_bind, Option.bind_eq_some_iff, Option.pure_def, Option.some.injEq,
      Prod.mk.injEq] at e
    obtain ⟨t, ht, rfl, rfl⟩ := e
    unfold register at ht
    split at ht
    · simp only [Option.some.injEq] at ht; subst ht
      exact inv_of_same h rfl rfl
    · simp at ht
  | start id =>
    have hok' : s.Live id := hok
    unfold exec at e
    simp only [Option.bind_eq_bind, Option.bind_eq_some_iff, Option.pure_def, Option.some.injEq,
      Prod.mk.injEq] at e
    obtain ⟨c, hc, rfl, rfl⟩ := e
    have hlive : ∀ j, Sys.Live (Sys.setHandle s id { s.handles id with state := .done }) j ↔ s.Live j := by
      intro j
      unfold Sys.Live
      rw [handles_set]
      by_cases hj : j = id
      · subst hj; simp only [if_true, ne_eq, reduceCtorEq, not_false_eq_true, true_iff]; exact hok'
      · simp [hj]
    have hcn : ∀ j, ((Sys.setHandle s id { s.handles id with state := .done }).handles j).ch = (s.handles j).ch ∧
        ((Sys.setHandle s id { s.handles id with state := .done }).handles j).num = (s.handles j).num := by
      intro j; rw [handles_set]; by_cases hj : j = id
      · subst hj; simp
      · simp [hj]
    have hown : ∀ k j, Sys.Owns (Sys.setHandle s id { s.handles id with state := .done }) k j ↔ s.Owns k j := by
      intro k j
      unfold Sys.Owns
      rw [hlive, (hcn k).1, (hcn k).2]
    refine ⟨?_, ?_, ?_, ?_, ?_⟩
    · intro j hj; rw [hlive] at hj; rw [(hcn j).1, (hcn j).2]; exact h.range j hj
    · intro k j hk; rw [hown] at hk; exact h.owned k j hk
    · intro k1 k2 j h1 h2; rw [hown] at h1 h2; exact h.disjoint k1 k2 j h1 h2
    · intro j hj
      rw [hlive] at hj
      rw [handles_set, if_neg (by rintro rfl; exact hj hok')]
      exact h.dead j hj
    · intro j hj
      obtain ⟨k, hk⟩ := h.used j hj
      exact ⟨k, (hown k j).mpr hk⟩
  | sync =>
    obtain ⟨a, b, _⟩ := sync_pool e
    exact inv_of_same h a b

theorem run_ind (P : Sys → Prop) (hstep : ∀ s op s' l, P s → Op.Ok s op → exec s op = some (s', l) → P s') :
    ∀ (ops : List Op) (s s' : Sys) (l : List Cb), P s → Disciplined s ops → run s ops = some (s', l) → P s' := by
  intro ops
  induction ops with
  | nil =>
    intro s s' l h _ hr
    simp only [run, Option.some.injEq, Prod.mk.injEq] at hr
    rw [← hr.1]; exact h
  | cons op ops ih =>
    intro s s' l h hd hr
    rw [run] at hr
    simp only [Option.bind_eq_bind, Option.bind_eq_some_iff, Option.pure_def, Option.some.injEq,
      Prod.mk.injEq] at hr
    obtain ⟨⟨s1, l1⟩, h1, ⟨s2, l2⟩, h2, rfl, _⟩ := hr
    obtain ⟨ok, hrest⟩ := hd
    exact ih s1 s2 l2 (hstep s op s1 l1 h ok h1) (hrest s1 l1 h1) h2

/-! ## C18 -/

/-- After any disciplined history no channel belongs to two handles. -/
theorem c18_channels_disjoint_partial (ops : List Op) (s : Sys) (l : List Cb)
    (hd : Disciplined Sys.init ops) (hr : run Sys.init ops = some (s, l)) :
    ∀ id1 id2 j, s.Owns id1 j → s.Owns id2 j → id1 = id2 :=
  (run_ind Inv (fun _ _ _ _ h ok e => inv_exec h ok e) ops _ _ _ inv_init hd hr).disjoint

/-- **Violation**: reconfiguring the pool while a handle is held hands the same channel out twice. -/
theorem c18_reconfigure_violated :
    ∃ (ops : List Op) (s : Sys), run Sys.init ops = some (s, []) ∧ s.Owns 0 0 ∧ s.Owns 1 0 := by
  have h : ∃ s, run Sys.init [.config 0 2, .acquire 0 1, .config 0 2, .acquire 1 1] = some (s, []) ∧
      s.handles 0 = ⟨0, 1, .opened⟩ ∧ s.handles 1 = ⟨0, 1, .opened⟩ := ⟨_, rfl, rfl, rfl⟩
  obtain ⟨s, h1, h2, h3⟩ := h
  refine ⟨_, s, h1, ?_, ?_⟩
  · unfold Sys.Owns Sys.Live; rw [h2]; simp
  · unfold Sys.Owns Sys.Live; rw [h3]; simp

/-- **Violation**: channels left over from an earlier, larger pool are handed out although they
are outside the pool now configured. -/
theorem c18_outside_pool_violated :
    ∃ (ops : List Op) (s : Sys), Disciplined Sys.init ops ∧ run Sys.init ops = some (s, []) ∧ s.Owns 0 3 ∧
      s.pool.base + s.pool.size ≤ 3 := by
  refine ⟨[.config 0 4, .config 0 2, .acquire 0 4], _, ?_, rfl, ?_, by decide⟩
  · refine disc_cons (fun id h => h rfl) rfl (disc_cons (fun id h => h rfl) rfl
      (disc_cons ⟨fun h => h rfl, by decide⟩ rfl trivial))
  · exact ⟨by decide, by decide, by decide⟩

/-- Invariant for histories with one configuration. -/
structure Inv2 (off n : Int) (s : Sys) : Prop extends Inv s where
  base : s.pool.base = off
  size : s.pool.size = n
  inside : ∀ j, off ≤ j → j < off + n → s.pool.status j ≠ .notUsed
  outside : ∀ j, ¬ (off ≤ j ∧ j < off + n) → s.pool.status j = .notUsed

def Op.isConfig : Op → Bool
  | .config _ _ => true
  | _ => false

theorem inv2_exec {off n : Int} {s s' : Sys} {op : Op} {l : List Cb} (h : Inv2 off n s) (hok : Op.Ok s op)
    (hc : op.isConfig = false) (e : exec s op = some (s', l)) : Inv2 off n s' := by
  have hi := inv_exec h.toInv hok e
  have same : s'.pool = s.pool → Inv2 off n s' := fun hp =>
    { hi with base := by rw [hp]; exact h.base, size := by rw [hp]; exact h.size,
              inside := by rw [hp]; exact h.inside, outside := by rw [hp]; exact h.outside }
  cases op with
  | config off n => simp [Op.isConfig] at hc
  | acquire id m =>
    unfold exec at e
    simp only [Option.bind_eq_bind, Option.bind_eq_some_iff] at e
    obtain ⟨⟨p, r⟩, ha, e⟩ := e
    obtain ⟨h1, h2⟩ := acquire_some ha
    cases r with
    | none =>
      simp only [Option.pure_def, Option.some.injEq, Prod.mk.injEq] at e
      obtain ⟨rfl, rfl⟩ := e
      exact same (h2 rfl).1
    | some hd =>
      simp only [Option.pure_def, Option.some.injEq, Prod.mk.injEq] at e
      obtain ⟨rfl, rfl⟩ := e
      obtain ⟨a, b, c, d, e', f, g, i⟩ := h1 hd rfl
      have hp : (Sys.setHandle { s with pool := p } id hd).pool = p := rfl
      refine { hi with base := ?_, size := ?_, inside := ?_, outside := ?_ } <;> rw [hp, i]
      · exact h.base
      · exact h.size
      · intro j h1 h2; simp only; split
        · simp
        · exact h.inside j h1 h2
      · intro j hj; simp only; split
        · rename_i hr
          have := f j hr.1 hr.2
          rw [h.outside j hj] at this; simp at this
        · exact h.outside j hj
  | release id =>
    have ho := h.toInv
    unfold exec at e
    simp only [Option.bind_eq_bind, Option.bind_eq_some_iff, Option.pure_def, Option.some.injEq,
      Prod.mk.injEq] at e
    obtain ⟨⟨p, hd⟩, hr, rfl, rfl⟩ := e
    obtain ⟨r1, r2⟩ := release_pool hr
    have hp : (Sys.setHandle { s with pool := p } id hd).pool = p := rfl
    refine { hi with base := ?_, size := ?_, inside := ?_, outside := ?_ } <;> rw [hp, r1]
    · exact h.base
    · exact h.size
    · intro j h1 h2; simp only; split
      · simp
      · exact h.inside j h1 h2
    · intro j hj; simp only; split
      · rename_i hr2
        by_cases hli : s.Live id
        · have := ho.owned id j ⟨hli, hr2.1, hr2.2⟩
          rw [h.outside j hj] at this; simp at this
        · rw [ho.dead id hli] at hr2; simp only at hr2; omega
      · exact h.outside j hj
  | register id cb =>
    apply same
    unfold exec at e
    simp only [Option.bind_eq_bind, Option.bind_eq_some_iff, Option.pure_def, Option.some.injEq,
      Prod.mk.injEq] at e
    obtain ⟨t, ht, rfl, rfl⟩ := e
    unfold register at ht
    split at ht
    · simp only [Option.some.injEq] at ht; subst ht; rfl
    · simp at ht
  | start id =>
    apply same
    unfold exec at e
    simp only [Option.bind_eq_bind, Option.bind_eq_some_iff, Option.pure_def, Option.some.injEq,
      Prod.mk.injEq] at e
    obtain ⟨c, hc, rfl, rfl⟩ := e
    rfl
  | sync => exact same (sync_pool e).1

/-- Histories which configure the pool once, before anything else. -/
theorem inv2_run (off n : Int) (ops : List Op) (s : Sys) (l : List Cb)
    (hcfg : ∀ op ∈ ops, op.isConfig = false)
    (hd : Disciplined Sys.init (.config off n :: ops)) (hr : run Sys.init (.config off n :: ops) = some (s, l)) :
    Inv2 off n s := by
  rw [run] at hr
  simp only [Option.bind_eq_bind, Option.bind_eq_some_iff, Option.pure_def, Option.some.injEq,
    Prod.mk.injEq] at hr
  obtain ⟨⟨s1, l1⟩, h1, ⟨s2, l2⟩, h2, rfl, -⟩ := hr
  obtain ⟨ok, hrest⟩ := hd
  have hi := inv_exec inv_init ok h1
  have h12 : Inv2 off n s1 := by
    have e := h1
    unfold exec at e
    simp only [Option.bind_eq_bind, Option.bind_eq_some_iff, Option.pure_def, Option.some.injEq,
      Prod.mk.injEq] at e
    obtain ⟨p, hp, rfl, rfl⟩ := e
    unfold setNumDmaCh at hp
    rw [fill_eq] at hp
    refine { hi with base := ?_, size := ?_, inside := ?_, outside := ?_ } <;> simp only <;> rw [hp.2]
    · intro j a b; simp only; rw [if_pos ⟨a, b⟩]; simp
    · intro j hj; simp only; rw [if_neg hj]; rfl
  have hd' := hrest s1 l1 h1
  clear hrest h1 ok hi
  change run s1 ops = some (s2, l2) at h2
  show Inv2 off n s2
  clear l1
  induction ops generalizing s1 l2 s2 with
  | nil =>
    simp only [run, Option.some.injEq, Prod.mk.injEq] at h2
    rw [← h2.1]; exact h12
  | cons op ops ih =>
    rw [run] at h2
    simp only [Option.bind_eq_bind, Option.bind_eq_some_iff, Option.pure_def, Option.some.injEq,
      Prod.mk.injEq] at h2
    obtain ⟨⟨t1, m1⟩, g1, ⟨t2, m2⟩, g2, rfl, _⟩ := h2
    obtain ⟨ok, hrest⟩ := hd'
    exact ih (fun op h => hcfg op (List.mem_cons_of_mem _ h)) t1 _ m2
      (inv2_exec h12 ok (hcfg op List.mem_cons_self) g1) (hrest t1 m1 g1) g2

/-- With one configuration, every owned channel is inside the configured pool. -/
theorem c18_channels_in_pool_partial (off n : Int) (ops : List Op) (s : Sys) (l : List Cb)
    (hcfg : ∀ op ∈ ops, op.isConfig = false)
    (hd : Disciplined Sys.init (.config off n :: ops)) (hr : run Sys.init (.config off n :: ops) = some (s, l)) :
    ∀ id j, s.Owns id j → off ≤ j ∧ j < off + n := by
  have h := inv2_run off n ops s l hcfg hd hr
  intro id j hj
  by_contra hc
  have := h.owned id j hj
  rw [h.outside j hc] at this; simp at this

/-! ## C19 -/

/-- Acquiring `n ≥ 1` channels (when the call is defined) succeeds exactly when the pool has `n`
consecutive channels that no held handle owns, and then returns the lowest such block. -/
theorem c19_acquire_iff_partial (off n : Int) (ops : List Op) (s : Sys) (l : List Cb)
    (hcfg : ∀ op ∈ ops, op.isConfig = false)
    (hd : Disciplined Sys.init (.config off n :: ops)) (hr : run Sys.init (.config off n :: ops) = some (s, l))
    (m : Int) (hm : 1 ≤ m) (p' : Pool) (r : Option Handle) (ha : acquire s.pool m = some (p', r)) :
    (r.isSome ↔ ∃ i, off ≤ i ∧ i + m ≤ off + n ∧ ∀ j, i ≤ j → j < i + m → ∀ id, ¬ s.Owns id j) ∧
    (∀ hd, r = some hd → off ≤ hd.ch ∧ hd.ch + m ≤ off + n ∧ hd.num = m ∧
      (∀ j, hd.ch ≤ j → j < hd.ch + m → ∀ id, ¬ s.Owns id j) ∧
      (∀ i, off ≤ i → i < hd.ch → ∃ j id, i ≤ j ∧ j < i + m ∧ s.Owns id j)) := by
  have h := inv2_run off n ops s l hcfg hd hr
  obtain ⟨h1, h2⟩ := acquire_some ha
  have avail_iff : ∀ j, off ≤ j → j < off + n → (s.pool.status j = .available ↔ ∀ id, ¬ s.Owns id j) := by
    intro j a b
    constructor
    · intro hs id ho; have := h.owned id j ho; rw [hs] at this; simp at this
    · intro hn
      cases hs : s.pool.status j with
      | notUsed => exact absurd hs (h.inside j a b)
      | available => rfl
      | inUse => obtain ⟨id, hid⟩ := h.used j hs; exact absurd hid (hn id)
  have avail_in : ∀ j, s.pool.status j = .available → off ≤ j ∧ j < off + n := by
    intro j hs
    by_contra hc
    rw [h.outside j hc] at hs; simp at hs
  have hres : ∀ hd, r = some hd → off ≤ hd.ch ∧ hd.ch + m ≤ off + n ∧ hd.num = m ∧
      (∀ j, hd.ch ≤ j → j < hd.ch + m → ∀ id, ¬ s.Owns id j) ∧
      (∀ i, off ≤ i → i < hd.ch → ∃ j id, i ≤ j ∧ j < i + m ∧ s.Owns id j) := by
    intro hd hhd
    obtain ⟨a, b, c, d, e', f, g, i⟩ := h1 hd hhd
    have hfirst := avail_in hd.ch (f hd.ch (by omega) (by omega))
    have hlast := avail_in (hd.ch + m - 1) (f _ (by omega) (by omega))
    refine ⟨by omega, by omega, a, ?_, ?_⟩
    · intro j hj1 hj2
      exact (avail_iff j (by omega) (by omega)).mp (f j hj1 hj2)
    · intro i0 hi0 hi1
      rw [h.base] at g
      obtain ⟨k, hk1, hk2, hk3⟩ := g i0 hi0 hi1
      have hkin : k < off + n := by
        -- otherwise the block at `i0` would leave the pool, but it lies below the found block
        omega
      have : ∃ id, s.Owns id k := by
        by_contra hc
        apply hk3
        rw [avail_iff k (by omega) hkin]
        intro id ho; exact hc ⟨id, ho⟩
      obtain ⟨id, ho⟩ := this
      exact ⟨k, id, hk1, hk2, ho⟩
  refine ⟨?_, hres⟩
  constructor
  · intro hs
    obtain ⟨hd, hhd⟩ := Option.isSome_iff_exists.mp hs
    obtain ⟨a, b, _, c, _⟩ := hres hd hhd
    exact ⟨hd.ch, a, b, c⟩
  · rintro ⟨i, hi1, hi2, hi3⟩
    cases hr' : r with
    | some hd => rfl
    | none =>
      obtain ⟨_, hno⟩ := h2 hr'
      rw [h.base, h.size] at hno
      obtain ⟨k, hk1, hk2, hk3⟩ := hno i hi1 (by omega)
      exact absurd ((avail_iff k (by omega) (by omega)).mpr (hi3 k hk1 hk2)) hk3

/-- The search stays inside the channel table when the pool ends at least `n - 1` channels below
the end of the table. -/
theorem c19_acquire_defined_partial (p : Pool) (n : Int)
    (h : 0 ≤ p.base ∧ p.base + p.size.toNat + n - 1 ≤ maxDmaChan) : ∃ r, acquire p n = some r := by
  obtain ⟨r, hr⟩ := search_defined p n p.size.toNat p.base (by omega)
  unfold acquire
  rw [hr]
  cases r with
  | none => exact ⟨_, rfl⟩
  | some i =>
    obtain ⟨h1, _⟩ := search_some p n _ _ _ hr
    obtain ⟨a, b, c, d, e⟩ := h1 i rfl
    have : ∃ q, p.fill i n .inUse = some q := ⟨_, (fill_eq p i n .inUse _).mpr ⟨c, rfl⟩⟩
    obtain ⟨q, hq⟩ := this
    simp only [Option.bind_eq_bind, Option.bind_some, hq]
    exact ⟨_, rfl⟩

/-- **Violation**: with all 16 channels in the pool, a failing request for two channels reads
past the end of the channel table. -/
theorem c19_out_of_table_violated :
    ∃ s, run Sys.init [.config 0 16, .acquire 0 16] = some (s, []) ∧ acquire s.pool 2 = none :=
  ⟨_, rfl, by decide⟩

/-- **Violation**: before any configuration the pool claims 16 channels but none can be acquired. -/
theorem c19_unconfigured_violated :
    Sys.init.pool.size = 16 ∧ ∃ p, acquire Sys.init.pool 1 = some (p, none) := ⟨rfl, _, rfl⟩

/-- No leak: once every handle is released, any request up to the pool size succeeds, at the
start of the pool. -/
theorem c19_no_leak (off n : Int) (ops : List Op) (s : Sys) (l : List Cb)
    (hcfg : ∀ op ∈ ops, op.isConfig = false)
    (hd : Disciplined Sys.init (.config off n :: ops)) (hr : run Sys.init (.config off n :: ops) = some (s, l))
    (hfree : ∀ id, ¬ s.Live id) (m : Int) (hm : 1 ≤ m ∧ m ≤ n) :
    ∃ p', acquire s.pool m = some (p', some { ch := off, num := m, state := .opened }) := by
  have h := inv2_run off n ops s l hcfg hd hr
  have hav : ∀ j, off ≤ j → j < off + n → s.pool.status j = .available := by
    intro j a b
    cases hs : s.pool.status j with
    | notUsed => exact absurd hs (h.inside j a b)
    | available => rfl
    | inUse => obtain ⟨id, hid⟩ := h.used j hs; exact absurd hid.1 (hfree id)
  have hrange : 0 ≤ off ∧ off + n ≤ maxDmaChan := by
    rw [run] at hr
    simp only [Option.bind_eq_bind, Option.bind_eq_some_iff] at hr
    obtain ⟨⟨s1, l1⟩, h1, _⟩ := hr
    unfold exec at h1
    simp only [Option.bind_eq_bind, Option.bind_eq_some_iff] at h1
    obtain ⟨p, hp, _⟩ := h1
    unfold setNumDmaCh at hp
    rw [fill_eq] at hp
    omega
  obtain ⟨b, hb⟩ := allAvailable_defined s.pool off m (by omega)
  obtain ⟨_, hiff⟩ := allAvailable_some _ _ _ _ hb
  have hbt : b = true := hiff.mpr (fun j a c => hav j a (by omega))
  subst hbt
  have hs : search s.pool m s.pool.size.toNat s.pool.base = some (some off) := by
    rw [h.base, h.size]
    obtain ⟨f, hf⟩ : ∃ f, n.toNat = f + 1 := ⟨n.toNat - 1, by omega⟩
    rw [hf, search, hb]; rfl
  have hq : ∃ q, s.pool.fill off m .inUse = some q := ⟨_, (fill_eq _ _ _ _ _).mpr ⟨by omega, rfl⟩⟩
  obtain ⟨q, hq⟩ := hq
  refine ⟨q, ?_⟩
  unfold acquire
  rw [hs]
  simp only [Option.bind_eq_bind, Option.bind_some, hq]
  rfl

/-- The hypotheses of the C18/C19 theorems are met by a history with acquires and releases. -/
example : ∃ s, run Sys.init [.config 2 6, .acquire 0 2, .acquire 1 3, .release 0, .acquire 2 1] = some (s, []) ∧
    s.handles 1 = ⟨4, 3, .opened⟩ ∧ s.handles 2 = ⟨2, 1, .opened⟩ ∧
    (acquire s.pool 2).map (·.2) = some none := ⟨_, rfl, rfl, rfl, by decide⟩

/-! ## C20 -/

/-- Callback invariant: `reg id` is what the current owner registered through `id`. -/
def CbInv (reg : Nat → Option Cb) (s : Sys) : Prop :=
  ∀ id c, s.Live id → reg id = some c → s.cbs (s.handles id).ch = some c

/-- One step of `lastReg` for all handles at once. -/
def regStep (reg : Nat → Option Cb) : Op → Nat → Option Cb
  | .acquire i _, id => if i = id then none else reg id
  | .release i, id => if i = id then none else reg id
  | .register i cb, id => if i = id then some cb else reg id
  | _, id => reg id

theorem lastReg_cons (id : Nat) (op : Op) (ops : List Op) (reg : Nat → Option Cb) :
    lastReg id (op :: ops) (reg id) = lastReg id ops (regStep reg op id) := by
  cases op <;> rfl

theorem cbInv_exec {reg : Nat → Option Cb} {s s' : Sys} {op : Op} {l : List Cb} (h : Inv s) (hcb : CbInv reg s)
    (hok : Op.Ok s op) (e : exec s op = some (s', l)) : CbInv (regStep reg op) s' := by
  intro id c hl hreg
  cases op with
  | config off n =>
    unfold exec at e
    simp only [Option.bind_eq_bind, Option.bind_eq_some_iff, Option.pure_def, Option.some.injEq,
      Prod.mk.injEq] at e
    obtain ⟨p, hp, rfl, rfl⟩ := e
    exact absurd hl (hok id)
  | acquire i n =>
    simp only [regStep] at hreg
    split at hreg
    · simp at hreg
    · rename_i hne
      unfold exec at e
      simp only [Option.bind_eq_bind, Option.bind_eq_some_iff] at e
      obtain ⟨⟨p, r⟩, ha, e⟩ := e
      cases r with
      | none =>
        simp only [Option.pure_def, Option.some.injEq, Prod.mk.injEq] at e
        obtain ⟨rfl, rfl⟩ := e
        exact hcb id c hl hreg
      | some hd =>
        simp only [Option.pure_def, Option.some.injEq, Prod.mk.injEq] at e
        obtain ⟨rfl, rfl⟩ := e
        unfold Sys.Live at hl
        rw [handles_set, if_neg (fun e => hne e.symm)] at hl ⊢
        exact hcb id c hl hreg
  | release i =>
    simp only [regStep] at hreg
    split at hreg
    · simp at hreg
    · rename_i hne
      unfold exec at e
      simp only [Option.bind_eq_bind, Option.bind_eq_some_iff, Option.pure_def, Option.some.injEq,
        Prod.mk.injEq] at e
      obtain ⟨⟨p, hd⟩, hr, rfl, rfl⟩ := e
      unfold Sys.Live at hl
      rw [handles_set, if_neg (fun e => hne e.symm)] at hl ⊢
      exact hcb id c hl hreg
  | register i cb =>
    unfold exec at e
    simp only [Option.bind_eq_bind, Option.bind_eq_some_iff, Option.pure_def, Option.some.injEq,
      Prod.mk.injEq] at e
    obtain ⟨t, ht, rfl, rfl⟩ := e
    unfold register at ht
    split at ht
    · simp only [Option.some.injEq] at ht; subst ht
      simp only [regStep] at hreg
      show (if (s.handles id).ch = (s.handles i).ch then some cb else s.cbs (s.handles id).ch) = some c
      split at hreg
      · rename_i hie; subst hie; rw [if_pos rfl]; exact hreg
      · rename_i hne
        have hl' : s.Live id := hl
        have hi' : s.Live i := hok
        rw [if_neg]
        · exact hcb id c hl' hreg
        · intro he
          apply hne
          have r1 := h.range id hl'
          have r2 := h.range i hi'
          exact h.disjoint i id (s.handles i).ch ⟨hi', by omega, by omega⟩ ⟨hl', by omega, by omega⟩
    · simp at ht
  | start i =>
    simp only [regStep] at hreg
    unfold exec at e
    simp only [Option.bind_eq_bind, Option.bind_eq_some_iff, Option.pure_def, Option.some.injEq,
      Prod.mk.injEq] at e
    obtain ⟨t, ht, rfl, rfl⟩ := e
    have hok' : s.Live i := hok
    unfold Sys.Live at hl
    rw [handles_set] at hl ⊢
    by_cases hi : id = i
    · subst hi; rw [if_pos rfl]; exact hcb id c hok' hreg
    · rw [if_neg hi] at hl ⊢; exact hcb id c hl hreg
  | sync =>
    simp only [regStep] at hreg
    obtain ⟨_, hh, hc⟩ := sync_pool e
    unfold Sys.Live at hl
    rw [hh] at hl ⊢
    rw [hc]; exact hcb id c hl hreg

theorem cb_run : ∀ (ops : List Op) (reg : Nat → Option Cb) (s s' : Sys) (l : List Cb), Inv s → CbInv reg s →
    Disciplined s ops → run s ops = some (s', l) → Inv s' ∧ CbInv (fun id => lastReg id ops (reg id)) s' := by
  intro ops
  induction ops with
  | nil =>
    intro reg s s' l h hc _ hr
    simp only [run, Option.some.injEq, Prod.mk.injEq] at hr
    rw [← hr.1]; exact ⟨h, hc⟩
  | cons op ops ih =>
    intro reg s s' l h hc hd hr
    rw [run] at hr
    simp only [Option.bind_eq_bind, Option.bind_eq_some_iff, Option.pure_def, Option.some.injEq,
      Prod.mk.injEq] at hr
    obtain ⟨⟨s1, l1⟩, h1, ⟨s2, l2⟩, h2, rfl, _⟩ := hr
    obtain ⟨ok, hrest⟩ := hd
    have := ih (regStep reg op) s1 s2 l2 (inv_exec h ok h1) (cbInv_exec h hc ok h1) (hrest s1 l1 h1) h2
    simp only [lastReg_cons]
    exact this

/-- If the current owner of a handle has registered a callback, starting the transfer invokes
exactly that callback, once, and nothing else. -/
theorem c20_start_calls_owner_partial (ops : List Op) (s : Sys) (l : List Cb)
    (hd : Disciplined Sys.init ops) (hr : run Sys.init ops = some (s, l))
    (id : Nat) (c : Cb) (hl : s.Live id) (hc : lastReg id ops none = some c) :
    ∃ s', exec s (.start id) = some (s', [c]) := by
  obtain ⟨hi, hcb⟩ := cb_run ops (fun _ => none) _ _ _ inv_init (fun id c _ h => by simp at h) hd hr
  have h1 := hcb id c hl hc
  obtain ⟨a, b, d⟩ := hi.range id hl
  have hs : startCalls s (s.handles id).ch = some [c] := by
    unfold startCalls
    rw [if_pos ⟨by omega, by omega⟩, h1]
  simp only [exec, hs]
  exact ⟨_, rfl⟩

/-- Data is in place when the callback runs: `start` is only reached after `prepare`, which
performs the copy (build without DMA); a transfer can be polled as done right after `start`. -/
theorem c20_done_after_start (s s' : Sys) (id : Nat) (l : List Cb) (h : exec s (.start id) = some (s', l)) :
    (s'.handles id).state = .done := by
  unfold exec at h
  simp only [Option.bind_eq_bind, Option.bind_eq_some_iff, Option.pure_def, Option.some.injEq,
    Prod.mk.injEq] at h
  obtain ⟨t, ht, rfl, rfl⟩ := h
  rw [handles_set, if_pos rfl]

/-- **Violation**: releasing a handle leaves its callback behind; the next owner of the channel
who registers nothing fires the previous owner's callback. -/
theorem c20_stale_callback_violated : ∃ (ops : List Op) (s : Sys),
    run Sys.init ops = some (s, []) ∧ lastReg 1 ops none = none ∧
    (exec s (.start 1)).map (·.2) = some [(7, 42)] :=
  ⟨[.config 0 2, .acquire 0 1, .register 0 (7, 42), .release 0, .acquire 1 1], _, rfl, rfl, rfl⟩

/-- **Violation**: a *synchronous* copy (which needs no channel) fires the callback of whoever
owns the first channel of the pool. -/
theorem c20_sync_fires_foreign_callback_violated : ∃ (ops : List Op) (s : Sys),
    run Sys.init ops = some (s, []) ∧ s.Owns 0 0 ∧ (exec s .sync).map (·.2) = some [(7, 42)] := by
  refine ⟨[.config 0 2, .acquire 0 1, .register 0 (7, 42)], _, rfl, ⟨by decide, by decide, by decide⟩, rfl⟩

example : ∃ s, run Sys.init [.config 0 2, .acquire 0 1, .acquire 1 1, .register 1 (5, 1), .register 0 (7, 42)]
      = some (s, []) ∧ s.handles 0 = ⟨0, 1, .opened⟩ ∧
    lastReg 0 [.config 0 2, .acquire 0 1, .acquire 1 1, .register 1 (5, 1), .register 0 (7, 42)] none = some (7, 42) ∧
    (exec s (.start 0)).map (·.2) = some [(7, 42)] := ⟨_, rfl, rfl, rfl, rfl⟩

end Mli.Dma
