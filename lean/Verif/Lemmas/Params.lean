import Verif.Model.Params
import Verif.Lemmas.Mem
import Verif.Props.Reduce

/-! # Integers in bytes, encoded arrays -/

namespace Mli.Rt

open Mli Mli.Iter Mli.Spec

theorem emod_256_mul (v m : Int) (hm : 0 < m) : v % (256 * m) = v % 256 + 256 * (v / 256 % m) := by
  have h1 := Int.mul_ediv_add_emod v 256
  have h2 := Int.mul_ediv_add_emod (v / 256) m
  have h3 := Int.emod_nonneg (v / 256) (show m ≠ 0 by omega)
  have h4 := Int.emod_lt_of_pos (v / 256) hm
  have h5 := Int.emod_nonneg v (show (256 : Int) ≠ 0 by omega)
  have h6 := Int.emod_lt_of_pos v (show (0 : Int) < 256 by omega)
  have e : v = (v % 256 + 256 * (v / 256 % m)) + 256 * m * (v / 256 / m) := by
    conv_lhs => rw [← h1]
    conv_lhs => rw [← h2]
    ring
  conv_lhs => rw [e]
  rw [Int.add_mul_emod_self_left, Int.emod_eq_of_lt] <;> omega

/-- The `n` bytes of `v` are at address `off`. -/
def HoldsInt (n : Nat) (v off : Int) (b : Buf) : Prop := ∀ k : Nat, k < n → b.get (off + k) = v / 256 ^ k % 256

theorem holdsInt_succ {n : Nat} {v off : Int} {b : Buf} (h : HoldsInt (n + 1) v off b) :
    b.get off = v % 256 ∧ HoldsInt n (v / 256) (off + 1) b := by
  constructor
  · have := h 0 (by omega)
    simpa using this
  · intro k hk
    have := h (k + 1) (by omega)
    rw [show off + 1 + (k : Int) = off + ((k + 1 : Nat) : Int) by push_cast; ring, this, pow_succ, Int.mul_comm, ← Int.ediv_ediv_of_nonneg (by omega)]

theorem putLe_ok : ∀ (n : Nat) (off v : Int) (b : Buf), 0 ≤ off → off + n ≤ b.size →
    ∃ b', putLe n off v b = some b' ∧ b'.size = b.size ∧ HoldsInt n v off b' ∧ ∀ a, a < off ∨ off + n ≤ a → b'.get a = b.get a
  | 0, off, v, b, _, _ => ⟨b, rfl, rfl, fun k hk => by omega, fun _ _ => rfl⟩
  | n + 1, off, v, b, h0, h1 => by
    push_cast at h1
    obtain ⟨b', k1, k2, k3, k4⟩ := putLe_ok n (off + 1) (v / 256) { b with get := fun x => if x = off then v % 256 else b.get x } (by omega) (by simpa using by omega)
    refine ⟨b', ?_, k2, ?_, ?_⟩
    · unfold putLe Buf.wr
      rw [if_pos (by omega), Option.bind_some, k1]
    · intro k hk
      cases k with
      | zero =>
        rw [k4 _ (Or.inl (by push_cast; omega))]
        simp
      | succ k =>
        have := k3 k (by omega)
        rw [show off + ((k + 1 : Nat) : Int) = off + 1 + (k : Int) by push_cast; ring, this, pow_succ, Int.mul_comm, ← Int.ediv_ediv_of_nonneg (by omega)]
    · intro a ha
      rw [k4 a (by push_cast at ha; omega)]
      show (if a = off then _ else _) = _
      rw [if_neg (by push_cast at ha; omega)]

theorem getRaw_ok : ∀ (n : Nat) (v off : Int) (b : Buf), 0 ≤ off → off + n ≤ b.size → HoldsInt n v off b → getRaw n off b = some (v % 256 ^ n)
  | 0, v, off, b, _, _, _ => by simp [getRaw]
  | n + 1, v, off, b, h0, h1, h => by
    push_cast at h1
    obtain ⟨e1, e2⟩ := holdsInt_succ h
    unfold getRaw
    rw [Buf.rd_some (by omega), Option.bind_some, getRaw_ok n (v / 256) (off + 1) b (by omega) (by omega) e2, Option.map_some, e1, pow_succ,
      Int.mul_comm (256 ^ n) 256, emod_256_mul v _ (by positivity)]

theorem getLe_ok {n : Nat} {v off : Int} {b : Buf} (hn : 1 ≤ n) (h0 : 0 ≤ off) (h1 : off + n ≤ b.size) (h : HoldsInt n v off b) (hr : InRange (8 * n) v) :
    getLe n off b = some v := by
  unfold getLe
  rw [getRaw_ok n v off b h0 h1 h, Option.map_some, ← wrap_of_inRange (w := 8 * n) (by omega) hr]
  congr 1
  have e : (256 : Int) ^ n = 2 ^ (8 * n) := by rw [pow_mul]; norm_num
  rw [e, wrap_of_inRange (w := 8 * n) (by omega) hr]
  rw [wrap_congr (y := v) (by rw [Int.emod_emod]), wrap_of_inRange (by omega) hr]

/-- `n` integers `p 0, p 1, …` of `sz` bytes are at address `off`. -/
structure HoldsArr (sz n : Nat) (p : Int → Int) (off : Int) (b : Buf) : Prop where
  inb : 0 ≤ off ∧ off + n * sz ≤ b.size
  val : ∀ i : Nat, i < n → HoldsInt sz (p i) (off + i * sz) b

theorem idx_bytes {sz i n : Nat} (h : i < n) : (i : Int) * sz + sz ≤ n * sz := by
  have : ((i + 1 : Nat) : Int) * sz ≤ n * sz := Int.mul_le_mul_of_nonneg_right (by omega) (by omega)
  push_cast at this
  linarith

theorem HoldsArr.frame {sz n : Nat} {p : Int → Int} {off : Int} {b b' : Buf} (h : HoldsArr sz n p off b) (hs : b'.size = b.size)
    (hf : ∀ a, off ≤ a → a < off + n * sz → b'.get a = b.get a) : HoldsArr sz n p off b' := by
  refine ⟨by rw [hs]; exact h.inb, fun i hi k hk => ?_⟩
  have := idx_bytes (sz := sz) hi
  have h0 : (0 : Int) ≤ i * sz := by positivity
  rw [hf _ (by omega) (by omega)]
  exact h.val i hi k hk

theorem encArr_ok (sz n : Nat) (src : Buf) (off : Int) (b : Buf) (hs : (n : Int) ≤ src.size) (h0 : 0 ≤ off) (h1 : off + n * sz ≤ b.size) :
    ∃ b', encArr sz n src off b = some b' ∧ b'.size = b.size ∧ HoldsArr sz n src.get off b' ∧ ∀ a, a < off ∨ off + n * sz ≤ a → b'.get a = b.get a := by
  unfold encArr
  obtain ⟨b', k1, k2, k3, k4⟩ := forRange_inv (n := n) (f := fun i b => (src.rd i).bind fun v => putLe sz (off + i * sz) v b) (s := b)
    (fun j b' => b'.size = b.size ∧ (∀ i : Nat, i < j → HoldsInt sz (src.get i) (off + i * sz) b') ∧
      ∀ a, a < off ∨ off + j * sz ≤ a → b'.get a = b.get a)
    ⟨rfl, fun i hi => by omega, fun _ _ => rfl⟩
    (by
      rintro j b1 hj ⟨i1, i2, i3⟩
      have hb := idx_bytes (sz := sz) hj
      have hp : (0 : Int) ≤ j * sz := by positivity
      obtain ⟨b2, q1, q2, q3, q4⟩ := putLe_ok sz (off + j * sz) (src.get j) b1 (by omega) (by omega)
      refine ⟨b2, ?_, by omega, ?_, ?_⟩
      · rw [Buf.rd_some (by omega), Option.bind_some, q1]
      · intro i hi
        rcases Nat.lt_succ_iff_lt_or_eq.mp hi with h | rfl
        · intro k hk
          have := idx_bytes (sz := sz) h
          rw [q4 _ (Or.inl (by omega))]
          exact i2 i h k hk
        · exact q3
      · intro a ha
        push_cast at ha
        have e : ((j : Int) + 1) * sz = j * sz + sz := by ring
        rw [q4 a (by omega), i3 a (by omega)])
  exact ⟨b', k1, k2, ⟨⟨h0, by omega⟩, k3⟩, k4⟩

/-- Bytes that the arrays take. -/
def totalBytes : List (Nat × Nat × Buf) → Int
  | [] => 0
  | (sz, n, _) :: r => n * sz + totalBytes r

theorem totalBytes_nonneg : ∀ l, 0 ≤ totalBytes l
  | [] => le_refl _
  | (sz, n, _) :: r => by
    have := totalBytes_nonneg r
    have : (0 : Int) ≤ n * sz := by positivity
    unfold totalBytes
    omega

/-- All arrays are in the buffer, one behind the other. -/
def HoldsAll : List (Nat × Nat × Buf) → Int → Buf → Prop
  | [], _, _ => True
  | (sz, n, src) :: r, off, b => HoldsArr sz n src.get off b ∧ HoldsAll r (off + n * sz) b

theorem encAll_ok : ∀ (l : List (Nat × Nat × Buf)) (off : Int) (b : Buf), (∀ e ∈ l, (e.2.1 : Int) ≤ e.2.2.size) → 0 ≤ off → off + totalBytes l ≤ b.size →
    ∃ b', encAll l off b = some b' ∧ b'.size = b.size ∧ HoldsAll l off b' ∧ ∀ a, a < off ∨ off + totalBytes l ≤ a → b'.get a = b.get a
  | [], off, b, _, _, _ => ⟨b, rfl, rfl, trivial, fun _ _ => rfl⟩
  | (sz, n, src) :: r, off, b, hs, h0, h1 => by
    have hr := totalBytes_nonneg r
    have hp : (0 : Int) ≤ n * sz := by positivity
    unfold totalBytes at h1
    obtain ⟨b1, p1, p2, p3, p4⟩ := encArr_ok sz n src off b (hs (sz, n, src) (by simp)) h0 (by omega)
    obtain ⟨b2, q1, q2, q3, q4⟩ := encAll_ok r (off + n * sz) b1 (fun e he => hs e (by simp [he])) (by omega) (by omega)
    refine ⟨b2, ?_, by omega, ⟨?_, q3⟩, ?_⟩
    · unfold encAll; rw [p1, Option.bind_some, q1]
    · exact p3.frame q2 fun a ha hb => q4 a (Or.inl hb)
    · intro a ha
      unfold totalBytes at ha
      rw [q4 a (by omega), p4 a (by omega)]

/-! ## Copies of bytes -/

theorem copyBytes_ok (n : Nat) (src : Buf) (so : Int) (dst : Buf) (d0 : Int) (h0 : 0 ≤ so) (h1 : so + n ≤ src.size) (h2 : 0 ≤ d0) (h3 : d0 + n ≤ dst.size) :
    ∃ dst', copyBytes n src so dst d0 = some dst' ∧ dst'.size = dst.size ∧ (∀ i : Nat, i < n → dst'.get (d0 + i) = src.get (so + i)) ∧
      ∀ a, a < d0 ∨ d0 + n ≤ a → dst'.get a = dst.get a := by
  unfold copyBytes
  obtain ⟨b', k1, k2, k3, k4⟩ := forRange_inv (n := n) (f := fun i d => (src.rd (so + i)).bind fun v => d.wr (d0 + i) v) (s := dst)
    (fun j b' => b'.size = dst.size ∧ (∀ i : Nat, i < j → b'.get (d0 + i) = src.get (so + i)) ∧ ∀ a, a < d0 ∨ d0 + j ≤ a → b'.get a = dst.get a)
    ⟨rfl, fun i hi => by omega, fun _ _ => rfl⟩
    (by
      rintro j b1 hj ⟨i1, i2, i3⟩
      refine ⟨{ b1 with get := fun x => if x = d0 + j then src.get (so + j) else b1.get x }, ?_, i1, ?_, ?_⟩
      · rw [Buf.rd_some (by omega), Option.bind_some]
        unfold Buf.wr
        rw [if_pos (by omega)]
      · intro i hi
        show (if _ then _ else _) = _
        rcases Nat.lt_succ_iff_lt_or_eq.mp hi with h | rfl
        · rw [if_neg (by omega)]; exact i2 i h
        · rw [if_pos rfl]
      · intro a ha
        push_cast at ha
        show (if _ then _ else _) = _
        rw [if_neg (by omega)]
        exact i3 a (by omega))
  exact ⟨b', k1, k2, k3, k4⟩

/-- A slice of an array, copied. -/
theorem copyArr_ok {sz n : Nat} {p : Int → Int} {off : Int} {enc : Buf} (h : HoldsArr sz n p off enc) {o c : Nat} (hc : o + c ≤ n) {pm : Buf} {d0 : Int}
    (h2 : 0 ≤ d0) (h3 : d0 + c * sz ≤ pm.size) :
    ∃ pm', copyBytes (sz * c) enc (off + o * sz) pm d0 = some pm' ∧ pm'.size = pm.size ∧ HoldsArr sz c (fun i => p (o + i)) d0 pm' ∧
      ∀ a, a < d0 ∨ d0 + c * sz ≤ a → pm'.get a = pm.get a := by
  have hp : (0 : Int) ≤ o * sz := by positivity
  have hq : (0 : Int) ≤ c * sz := by positivity
  have hb : ((o + c : Nat) : Int) * sz ≤ n * sz := Int.mul_le_mul_of_nonneg_right (by omega) (by omega)
  have hb' : (o : Int) * sz + c * sz ≤ n * sz := by push_cast at hb; linarith
  have e : ((sz * c : Nat) : Int) = c * sz := by push_cast; ring
  have := h.inb
  obtain ⟨pm', k1, k2, k3, k4⟩ := copyBytes_ok (sz * c) enc (off + o * sz) pm d0 (by omega) (by omega) h2 (by omega)
  refine ⟨pm', k1, k2, ⟨⟨h2, by omega⟩, fun i hi k hk => ?_⟩, fun a ha => k4 a (by omega)⟩
  have hik : i * sz + k < sz * c := by
    have : (i + 1) * sz ≤ c * sz := Nat.mul_le_mul_right sz hi
    rw [Nat.add_mul, Nat.one_mul] at this
    rw [Nat.mul_comm sz c]
    omega
  have g := k3 (i * sz + k) hik
  push_cast at g
  rw [show d0 + (i : Int) * sz + k = d0 + ((i : Int) * sz + k) by ring, g]
  have := h.val (o + i) (by omega) k hk
  push_cast at this
  rw [show off + (o : Int) * sz + ((i : Int) * sz + k) = off + ((o : Int) + i) * sz + k by ring]
  exact this

/-! ## Typed pointers -/

theorem typed_ok {sz n : Nat} {p : Int → Int} {off : Int} {b : Buf} (h : HoldsArr sz n p off b) (hsz : 1 ≤ sz) (hr : ∀ i : Nat, i < n → InRange (8 * sz) (p i)) :
    (n : Int) ≤ (typed sz off b).size ∧ ∀ i : Nat, i < n → (typed sz off b).get i = p i := by
  have := h.inb
  constructor
  · show (n : Int) ≤ if _ then _ else _
    rw [if_pos (by omega)]
    exact (Int.le_ediv_iff_mul_le (by omega)).mpr (by omega)
  · intro i hi
    have hb := idx_bytes (sz := sz) hi
    have hp : (0 : Int) ≤ i * sz := by positivity
    show (getLe sz (off + i * sz) b).getD 0 = _
    rw [getLe_ok hsz (by omega) (by omega) (h.val i hi) (hr i hi)]
    rfl

/-! ## The parameters of a tile -/

/-- The arrays of `n` elements, as `EncodeParams` takes them. -/
def arrays (n : Nat) (l : List (Nat × Buf)) : List (Nat × Nat × Buf) := l.map fun e => (e.1, n, e.2)

/-- Bytes of one set of parameters. -/
def setBytes : List (Nat × Buf) → Int
  | [] => 0
  | (sz, _) :: r => sz + setBytes r

theorem setBytes_nonneg : ∀ l, 0 ≤ setBytes l
  | [] => le_refl _
  | (sz, _) :: r => by
    have := setBytes_nonneg r
    unfold setBytes
    omega

theorem totalBytes_arrays (n : Nat) : ∀ l, totalBytes (arrays n l) = n * setBytes l
  | [] => by simp [arrays, totalBytes, setBytes]
  | (sz, s) :: r => by
    have := totalBytes_arrays n r
    unfold arrays at this
    unfold arrays
    rw [List.map_cons, totalBytes, this, setBytes]
    ring

/-- Offsets of the arrays if each has room for `np` elements. -/
def offsFrom (np : Int) : List (Nat × Buf) → Int → List Int
  | [], _ => []
  | (sz, _) :: r, g => np * g :: offsFrom np r (g + sz)

/-- The local buffer holds the elements from `o` on of each array. -/
def HoldsTile (o cnt : Nat) (np : Int) : List (Nat × Buf) → Int → Buf → Prop
  | [], _, _ => True
  | (sz, src) :: r, p, b => HoldsArr sz cnt (fun i => src.get (o + i)) p b ∧ HoldsTile o cnt np r (p + np * sz) b

theorem fetchParams_ok {n o cnt : Nat} {np pb : Int} {enc : Buf} (hc : o + cnt ≤ n) (hnp : (cnt : Int) ≤ np) (hpb : 0 ≤ pb) :
    ∀ (l : List (Nat × Buf)) (g : Int) (pm : Buf), 0 ≤ g → HoldsAll (arrays n l) (n * g) enc → pb + np * (g + setBytes l) ≤ pm.size →
    ∃ pm', fetchParams n o cnt pb enc (l.map (·.1)) (offsFrom np l g) g pm = some pm' ∧ pm'.size = pm.size ∧
      HoldsTile o cnt np l (pb + np * g) pm' ∧ ∀ a, a < pb + np * g → pm'.get a = pm.get a
  | [], g, pm, _, _, _ => ⟨pm, rfl, rfl, trivial, fun _ _ => rfl⟩
  | (sz, src) :: r, g, pm, hg, hA, hs => by
    have h0 : 0 ≤ np := by omega
    have hr := setBytes_nonneg r
    have hsz : (0 : Int) ≤ sz := by omega
    unfold setBytes at hs
    have e1 : np * (g + ((sz : Int) + setBytes r)) = np * g + np * sz + np * setBytes r := by ring
    have p1 : 0 ≤ np * g := Int.mul_nonneg h0 hg
    have p2 : 0 ≤ np * sz := Int.mul_nonneg h0 hsz
    have p3 : 0 ≤ np * setBytes r := Int.mul_nonneg h0 hr
    have p4 : (cnt : Int) * sz ≤ np * sz := Int.mul_le_mul_of_nonneg_right hnp hsz
    rw [e1] at hs
    unfold arrays at hA
    rw [List.map_cons] at hA
    obtain ⟨hA1, hA2⟩ := hA
    obtain ⟨pm1, k1, k2, k3, k4⟩ := copyArr_ok hA1 hc (pm := pm) (d0 := pb + np * g) (by omega) (by linarith)
    obtain ⟨pm2, q1, q2, q3, q4⟩ := fetchParams_ok hc hnp hpb r (g + sz) pm1 (by omega)
      (by rw [show (n : Int) * (g + sz) = n * g + n * sz by ring]; exact hA2)
      (by rw [k2, show np * (g + sz + setBytes r) = np * g + np * sz + np * setBytes r by ring]; exact hs)
    have e2 : pb + np * (g + (sz : Int)) = pb + np * g + np * sz := by ring
    rw [e2] at q3 q4
    refine ⟨pm2, ?_, by omega, ⟨k3.frame q2 fun a _ hb => q4 a (by linarith), q3⟩, fun a ha => ?_⟩
    · unfold offsFrom fetchParams
      rw [List.map_cons]
      simp only
      rw [Int.toNat_natCast, k1, Option.bind_some]
      exact q1
    · rw [q4 a (by omega), k4 a (by omega)]

theorem typed_rd {sz n : Nat} {p : Int → Int} {off : Int} {b : Buf} (h : HoldsArr sz n p off b) (hsz : 1 ≤ sz) (hr : ∀ i : Nat, i < n → InRange (8 * sz) (p i))
    (i : Nat) (hi : i < n) : (typed sz off b).rd i = some (p i) := by
  obtain ⟨h1, h2⟩ := typed_ok h hsz hr
  rw [Buf.rd_some (by omega), h2 i hi]

end Mli.Rt
