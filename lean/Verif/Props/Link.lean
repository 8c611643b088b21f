import Verif.Model.Link
import Verif.Lemmas.Params
import Verif.Props.Mov

/-!
# C79: buffers keep their places when they are linked; C80: objects are created for the kernel they were compiled for
-/

namespace Mli.Rt
open Mli Mli.Iter Mli.Spec

/-! ## Specification -/

/-- The memory map: `lens` are the sizes of the memories in the plan of the compiler, `bases` the places they get at run time, in a memory of `total` bytes. -/
structure MemMap (bases lens : List Int) (total : Int) : Prop where
  len : bases.length = lens.length
  top : total ≤ 2 ^ 64
  inb : ∀ i < bases.length, 0 ≤ bases.getD i 0 ∧ bases.getD i 0 + lens.getD i 0 ≤ total
  apart : ∀ i < bases.length, ∀ j < bases.length, i ≠ j →
    bases.getD i 0 + lens.getD i 0 ≤ bases.getD j 0 ∨ bases.getD j 0 + lens.getD j 0 ≤ bases.getD i 0

/-- The buffer is inside its memory. -/
structure OffBuf.InMem (b : OffBuf) (lens : List Int) : Prop where
  mem : 0 ≤ b.mem ∧ b.mem < lens.length
  off : 0 ≤ b.off
  size : 0 ≤ b.size
  fits : b.off + b.size ≤ lens.getD b.mem.toNat 0

/-- Two buffers have no byte in common in the plan of the compiler. -/
def OffBuf.Apart (b c : OffBuf) : Prop := b.mem ≠ c.mem ∨ b.off + b.size ≤ c.off ∨ c.off + c.size ≤ b.off

/-- Element `i` is inside a buffer of `size` bytes with elements of `n` bytes. -/
def ElemIn (n : Nat) (i size : Int) : Prop := 0 ≤ i ∧ n * (i + 1) ≤ size

/-! ## Linking -/

theorem link_eq {b : OffBuf} {bases lens : List Int} {total : Int} (hm : MemMap bases lens total) (hb : b.InMem lens) (hp : 0 < b.size) :
    b.link bases = some { ptr := bases.getD b.mem.toNat 0 + b.off, size := b.size, es := b.es } ∧
      0 ≤ bases.getD b.mem.toNat 0 + b.off ∧ bases.getD b.mem.toNat 0 + b.off + b.size ≤ total := by
  have h0 := hb.mem
  have h1 := hm.inb b.mem.toNat (by have := hm.len; omega)
  have h2 := hb.off
  have h3 := hb.fits
  have h4 := hm.top
  have h5 := hm.len
  refine ⟨?_, by omega, by omega⟩
  unfold OffBuf.link
  rw [if_pos (by omega), Int.emod_eq_of_lt (by omega) (by omega)]

theorem elem_bytes {n : Nat} {i size : Int} (h : ElemIn n i size) : 0 ≤ n * i ∧ n * i + n ≤ size := by
  obtain ⟨h0, h1⟩ := h
  have e : (n : Int) * (i + 1) = n * i + n := by ring
  exact ⟨by positivity, by omega⟩

/-- `get` on a range of bytes decides what is read there. -/
theorem getRaw_congr : ∀ (n : Nat) (off : Int) (b b' : Buf), b'.size = b.size → (∀ a, off ≤ a → a < off + n → b'.get a = b.get a) →
    getRaw n off b' = getRaw n off b
  | 0, _, _, _, _, _ => rfl
  | n + 1, off, b, b', hs, h => by
    push_cast at h
    unfold getRaw
    rw [getRaw_congr n (off + 1) b b' hs (fun a h1 h2 => h a (by omega) (by omega))]
    unfold Buf.rd
    rw [hs, h off (by omega) (by omega)]

/-- **C79**, linking.  A buffer that the compiler placed inside its memory is, after linking, at the base address of that memory plus its offset, for every
memory map.  A value written to an element of it is read back from that element; every other element of the buffer, every element of every buffer that the
compiler kept apart from it, and every byte outside of it stay as they are. -/
theorem c79_link (bases lens : List Int) (mem : Buf) (hm : MemMap bases lens mem.size) (b : OffBuf) (hb : b.InMem lens) (n : Nat) (hn : 1 ≤ n)
    (hes : b.es = n) (i v : Int) (hi : ElemIn n i b.size) (hv : InRange (8 * n) v) :
    ∃ r mem', b.link bases = some r ∧ r.ptr = bases.getD b.mem.toNat 0 + b.off ∧ r.write n i v mem = some mem' ∧ mem'.size = mem.size ∧
      r.read n i mem' = some v ∧
      (∀ j, ElemIn n j b.size → j ≠ i → r.read n j mem' = r.read n j mem) ∧
      (∀ (c : OffBuf) (k : Nat) (j : Int), c.InMem lens → b.Apart c → 1 ≤ k → ElemIn k j c.size →
        ∃ q, c.link bases = some q ∧ q.read k j mem' = q.read k j mem) ∧
      (∀ a, a < r.ptr ∨ r.ptr + b.size ≤ a → mem'.get a = mem.get a) := by
  obtain ⟨e1, e2⟩ := elem_bytes hi
  obtain ⟨h1, h2, h3⟩ := link_eq hm hb (by omega)
  generalize hB : bases.getD b.mem.toNat 0 + b.off = B at h1 h2 h3
  obtain ⟨mem', k1, k2, k3, k4⟩ := putLe_ok n (B + n * i) v mem (by omega) (by omega)
  have hr : ∀ (j : Int) (m : Buf), IntBuf.read { ptr := B, size := b.size, es := b.es } n j m = getLe n (B + n * j) m := by
    intro j m
    unfold IntBuf.read
    rw [if_pos hes.symm]
  refine ⟨_, mem', h1, rfl, ?_, k2, ?_, ?_, ?_, ?_⟩
  · unfold IntBuf.write
    rw [if_pos hes.symm, k1]
  · rw [hr]
    exact getLe_ok hn (by omega) (by omega) k3 hv
  · intro j hj hne
    obtain ⟨f1, f2⟩ := elem_bytes hj
    rw [hr, hr]
    unfold getLe
    rw [getRaw_congr n (B + n * j) mem mem' k2]
    intro a ha hb'
    apply k4
    rcases lt_or_gt_of_ne hne with h | h
    · have : (n : Int) * (j + 1) ≤ n * i := Int.mul_le_mul_of_nonneg_left (by omega) (by omega)
      have e : (n : Int) * (j + 1) = n * j + n := by ring
      omega
    · have : (n : Int) * (i + 1) ≤ n * j := Int.mul_le_mul_of_nonneg_left (by omega) (by omega)
      have e : (n : Int) * (i + 1) = n * i + n := by ring
      omega
  · intro c k j hc hap hk hj
    obtain ⟨f1, f2⟩ := elem_bytes hj
    obtain ⟨g1, g2, g3⟩ := link_eq hm hc (by omega)
    refine ⟨_, g1, ?_⟩
    unfold IntBuf.read getLe
    split
    · rw [getRaw_congr k (bases.getD c.mem.toNat 0 + c.off + k * j) mem mem' k2]
      intro a ha hb'
      apply k4
      have hbm := hb.mem
      have hcm := hc.mem
      have hbf := hb.fits
      have hcf := hc.fits
      have hbo := hb.off
      have hco := hc.off
      by_cases hmm : b.mem = c.mem
      · rw [← hmm] at ha hb'
        have := hap.resolve_left (by simp [hmm])
        omega
      · have hl := hm.len
        have := hm.apart b.mem.toNat (by omega) c.mem.toNat (by omega) (by omega)
        omega
    · rfl
  · intro a ha
    apply k4
    simp only at ha
    omega

/-- **C79**, a buffer inside another one.  It is refused exactly if it would begin behind the end of the outer one.  Otherwise it is inside the memory, it
consists of the bytes of the outer buffer from `r` on, and taking the part from `s` on of it gives the part from `r + s` on of the outer buffer. -/
theorem c79_sub (lens : List Int) (b : OffBuf) (hb : b.InMem lens) (h32 : b.off + b.size < 2 ^ 32) (r : Int) (hr : 0 ≤ r) :
    (b.sub r = none ↔ b.size < r) ∧
      ∀ c, b.sub r = some c → c.InMem lens ∧ c.mem = b.mem ∧ c.off = b.off + r ∧ c.off + c.size = b.off + b.size ∧ c.es = b.es ∧
        ∀ s, 0 ≤ s → c.sub s = b.sub (r + s) := by
  have h0 := hb.off
  have h1 := hb.size
  unfold OffBuf.sub
  constructor
  · split <;> simp <;> omega
  · intro c hc
    split at hc
    case isFalse => cases hc
    case isTrue h =>
      cases hc
      rw [u32_id (x := b.off + r) (by omega), u32_id (x := b.size - r) (by omega)]
      refine ⟨⟨hb.mem, by simp only; omega, by simp only; omega, ?_⟩, rfl, rfl, by simp only; omega, rfl, ?_⟩
      · have := hb.fits
        simp only
        omega
      · intro s hs
        simp only
        by_cases h2 : r + s ≤ b.size
        · rw [if_pos (by omega), if_pos h2]
          congr 2 <;> congr 1 <;> omega
        · rw [if_neg (by omega), if_neg h2]

/-! ## Creation -/

theorem factory_id (k : Kernel) (h : k ≠ .resizeBilinear) : factoryCase k.id = some k := by
  cases k <;> first | exact absurd rfl h | rfl

/-- The kernel number is read back from the head of the private data. -/
theorem head_id {k : Kernel} {b priv : Buf} {size : Int} (h8 : 8 ≤ b.size) (hw : writeHead k size b = some priv) : getRaw 4 0 priv = some k.id := by
  unfold writeHead at hw
  obtain ⟨b1, k1, k2, k3, _⟩ := putLe_ok 4 0 k.id b (by omega) (by omega)
  obtain ⟨b2, j1, j2, _, j4⟩ := putLe_ok 4 4 size b1 (by omega) (by omega)
  rw [k1, Option.bind_some, j1] at hw
  injection hw with hw
  subst hw
  have hh : HoldsInt 4 k.id 0 b2 := by
    intro i hi
    rw [j4 _ (Or.inl (by omega))]
    exact k3 i hi
  have hid : k.id % 256 ^ 4 = k.id := by cases k <;> rfl
  rw [getRaw_ok 4 k.id 0 b2 (by omega) (by omega) hh, hid]

/-- **C80**, creation.  For every kernel but the no-operation and the bilinear resize: the private data that the compile-time class wrote and a piece of
aligned memory of the size that it reports give an object of the run-time class of that kernel, built from exactly these private data and base addresses. -/
theorem c80_create_partial (sz : Kernel → Int) (k : Kernel) (hk : k ≠ .nop) (hk' : k ≠ .resizeBilinear) (b priv : Buf) (size : Int) (h8 : 8 ≤ b.size)
    (hw : writeHead k size b = some priv) (addr alloc : Int) (ha : addr ≠ 0 ∧ addr % 4 = 0) (hal : reportedSize sz k ≤ alloc) (bases : List Int) :
    create sz addr alloc priv bases = some (some { kernel := k, priv, bases }) := by
  unfold create
  rw [if_pos ha, head_id h8 hw, Option.map_some, factory_id k hk', Option.bind_some, if_pos]
  unfold reportedSize at hal
  split at hal
  · exact absurd rfl hk
  · exact hal

/-- **C80**, refusal.  If the memory is smaller than the run-time object of the kernel, `Create` returns the null pointer, for every kernel. -/
theorem c80_create_small (sz : Kernel → Int) (k : Kernel) (b priv : Buf) (size : Int) (h8 : 8 ≤ b.size) (hw : writeHead k size b = some priv)
    (addr alloc : Int) (ha : addr ≠ 0 ∧ addr % 4 = 0) (hal : alloc < sz k) (bases : List Int) :
    create sz addr alloc priv bases = some none := by
  unfold create
  rw [if_pos ha, head_id h8 hw, Option.map_some]
  by_cases hk : k = .resizeBilinear
  · subst hk
    rfl
  · rw [factory_id k hk, Option.bind_some, if_neg (by omega)]

/-- **C80**.  An object is only ever created of the class whose number is in the private data, and only if it fits. -/
theorem c80_create_only (sz : Kernel → Int) (addr alloc : Int) (priv : Buf) (bases : List Int) (o : RtObj)
    (h : create sz addr alloc priv bases = some (some o)) :
    getRaw 4 0 priv = some o.kernel.id ∧ sz o.kernel ≤ alloc ∧ o.priv = priv ∧ o.bases = bases := by
  unfold create at h
  split at h
  · rw [Option.map_eq_some_iff] at h
    obtain ⟨id, h1, h2⟩ := h
    rw [Option.bind_eq_some_iff] at h2
    obtain ⟨k, h3, h4⟩ := h2
    split at h4
    case isTrue hs =>
      cases h4
      refine ⟨?_, hs, rfl, rfl⟩
      rw [h1]
      congr 1
      unfold factoryCase at h3
      rw [Option.map_eq_some_iff] at h3
      obtain ⟨p, h5, rfl⟩ := h3
      have h6 := List.find?_some h5
      rw [← eq_of_beq h6]
      exact (show ∀ p ∈ factoryTable, p.1 = p.2.id by decide) p (List.mem_of_find?_eq_some h5)
    case isFalse => cases h4
  · cases h

/-- **C79**.  Moving a buffer by `k` elements, before or after it is linked, gives the same buffer, and its element `i` is element `k + i` of the original one. -/
theorem c79_inc (bases lens : List Int) (mem : Buf) (hm : MemMap bases lens mem.size) (b : OffBuf) (hb : b.InMem lens) (h32 : b.off + b.size < 2 ^ 32)
    (n : Nat) (hn : 1 ≤ n) (hes : b.es = n) (k : Int) (hk : ElemIn n k b.size) :
    ∃ r, b.link bases = some r ∧ (b.inc k).link bases = some (r.inc k) ∧ (r.inc k).ptr = r.ptr + n * k ∧
      ∀ (i v : Int), (r.inc k).read n i mem = r.read n (k + i) mem ∧ (r.inc k).write n i v mem = r.write n (k + i) v mem := by
  obtain ⟨e1, e2⟩ := elem_bytes hk
  obtain ⟨h1, h2, h3⟩ := link_eq hm hb (by omega)
  have h0 := hb.off
  generalize hB : bases.getD b.mem.toNat 0 + b.off = B at h1 h2 h3
  have hu : u32 (b.es * k) = n * k := by rw [hes]; exact u32_id (by omega)
  have hend := hm.top
  have hml := hm.len
  have hmem := hb.mem
  have hptr : (IntBuf.inc { ptr := B, size := b.size, es := b.es } k).ptr = B + n * k := by
    unfold IntBuf.inc
    simp only [hu]
    exact Int.emod_eq_of_lt (by omega) (by omega)
  have hes' : (IntBuf.inc { ptr := B, size := b.size, es := b.es } k).es = n := hes
  refine ⟨_, h1, ?_, hptr, ?_⟩
  · unfold OffBuf.link OffBuf.inc IntBuf.inc
    simp only [hu]
    rw [if_pos (by omega), u32_id (by omega)]
    congr 2
    rw [← Int.add_assoc, hB]
  · intro i v
    unfold IntBuf.read IntBuf.write
    rw [hptr, hes', if_pos rfl, if_pos rfl, if_pos hes.symm, if_pos hes.symm]
    rw [show B + n * k + n * i = B + n * (k + i) by ring]
    exact ⟨rfl, rfl⟩

/-! ## Violations -/

/-- The property is false for the no-operation: its compile-time class reports 0 bytes, which is too little for any object. -/
theorem c80_nop_violated (sz : Kernel → Int) (hs : 0 < sz .nop) (b priv : Buf) (size : Int) (h8 : 8 ≤ b.size) (hw : writeHead .nop size b = some priv)
    (bases : List Int) : create sz 4 (reportedSize sz .nop) priv bases = some none :=
  c80_create_small sz .nop b priv size h8 hw 4 _ (by decide) hs bases

/-- Concrete private data of a kernel: the head, the rest 0. -/
def exPriv (k : Kernel) : Buf := ((writeHead k 16 (Buf.ofList (List.replicate 16 0))).getD (Buf.ofList []))

/-- The property is false for the bilinear resize: its compile-time class exists, but no memory is enough to get an object. -/
theorem c80_resize_violated (sz : Kernel → Int) (alloc : Int) (bases : List Int) :
    create sz 4 alloc (exPriv .resizeBilinear) bases = some none := by
  unfold create
  rw [if_pos (by decide), show getRaw 4 0 (exPriv .resizeBilinear) = some 24 from by decide +kernel]
  rfl

/-- Outside of the property (C79 speaks of elements inside the buffer): the size of a buffer is not looked at: a write behind the end of a buffer succeeds and changes an element of the next one, although the two are apart
in the plan. -/
theorem c79_unchecked : ∃ (b c : OffBuf) (bases : List Int) (r q : IntBuf) (mem mem' : Buf),
    b.Apart c ∧ b.InMem [8] ∧ c.InMem [8] ∧ b.link bases = some r ∧ c.link bases = some q ∧ ¬ ElemIn 1 4 r.size ∧ r.write 1 4 7 mem = some mem' ∧
      q.read 1 0 mem = some 0 ∧ q.read 1 0 mem' = some 7 := by
  refine ⟨⟨0, 0, 4, 1⟩, ⟨4, 0, 4, 1⟩, [16], ⟨16, 4, 1⟩, ⟨20, 4, 1⟩, Buf.ofList (List.replicate 32 0),
    { Buf.ofList (List.replicate 32 0) with get := fun x => if x = 20 then 7 else (Buf.ofList (List.replicate 32 0)).get x },
    Or.inr (Or.inl (by decide)), ⟨by decide, by decide, by decide, by decide⟩, ⟨by decide, by decide, by decide, by decide⟩, by decide, by decide,
    fun h => absurd h.2 (by decide), ?_, by decide +kernel, by decide +kernel⟩
  unfold IntBuf.write putLe Buf.wr
  rfl

/-- Outside of the property: `inc` moves a linked buffer without making it smaller: an element inside of the moved buffer is an element of the next buffer. -/
theorem c79_inc_unchecked : ∃ (b c : OffBuf) (bases : List Int) (r q : IntBuf) (mem : Buf),
    b.Apart c ∧ b.InMem [8] ∧ c.InMem [8] ∧ b.link bases = some r ∧ c.link bases = some q ∧ ElemIn 1 3 (r.inc 1).size ∧
      (r.inc 1).read 1 3 mem = q.read 1 0 mem ∧ q.read 1 0 mem = some 5 := by
  refine ⟨⟨0, 0, 4, 1⟩, ⟨4, 0, 4, 1⟩, [16], ⟨16, 4, 1⟩, ⟨20, 4, 1⟩, Buf.ofList (List.replicate 20 0 ++ [5, 0, 0, 0]),
    Or.inr (Or.inl (by decide)), ⟨by decide, by decide, by decide, by decide⟩, ⟨by decide, by decide, by decide, by decide⟩, by decide, by decide,
    ⟨by decide, by decide⟩, by decide +kernel, by decide +kernel⟩

/-! ## Non-vacuity -/

example : MemMap [100, 16] [40, 64] 200 := ⟨rfl, by decide, by decide, by decide⟩
example : OffBuf.InMem ⟨8, 1, 16, 4⟩ [40, 64] := ⟨by decide, by decide, by decide, by decide⟩
example : OffBuf.Apart ⟨8, 1, 16, 4⟩ ⟨0, 0, 40, 1⟩ ∧ OffBuf.Apart ⟨8, 1, 16, 4⟩ ⟨24, 1, 40, 2⟩ := ⟨Or.inl (by decide), Or.inr (Or.inl (by decide))⟩
example : ElemIn 4 3 16 ∧ ¬ ElemIn 4 4 16 := ⟨⟨by decide, by decide⟩, fun h => absurd h.2 (by decide)⟩
example : (OffBuf.link ⟨8, 1, 16, 4⟩ [100, 16]).map (·.ptr) = some 24 := by decide
example : OffBuf.sub ⟨8, 1, 16, 4⟩ 12 = some ⟨20, 1, 4, 4⟩ ∧ OffBuf.sub ⟨8, 1, 16, 4⟩ 17 = none := by decide
example : (writeHead .matMul 200 (Buf.ofList (List.replicate 16 0))).isSome = true := by decide +kernel
example : (create (fun _ => 64) 4 64 (exPriv .matMul) [0]).map (·.map (·.kernel)) = some (some .matMul) := by decide +kernel
example : (create (fun _ => 64) 4 0 (exPriv .nop) [0]).map (·.map (·.kernel)) = some none := by decide +kernel

end Mli.Rt
