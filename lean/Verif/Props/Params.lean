import Verif.Lemmas.Params

/-! # C71: encoded parameters reach the run-time kernels -/

namespace Mli.Rt

open Mli Mli.Iter Mli.Spec

/-- Element `j` of the array of `sz`-byte integers that a kernel has at address `p`, for `j < cnt`, is element `o + j` of the array `src` of the user. -/
def Delivers (sz : Nat) (p : Int) (pm : Buf) (src : Buf) (o cnt : Nat) : Prop := ∀ j : Nat, j < cnt → (typed sz p pm).rd j = some (src.get (o + j))

/-- The first `n` elements of an array exist and have `sz` bytes. -/
def Fits (sz n : Nat) (src : Buf) : Prop := (n : Int) ≤ src.size ∧ ∀ i : Nat, i < n → InRange (8 * sz) (src.get i)

theorem delivers_of {sz n o cnt : Nat} {p : Int} {pm src : Buf} (h : HoldsArr sz cnt (fun i => src.get (o + i)) p pm) (hsz : 1 ≤ sz) (hf : Fits sz n src)
    (hc : o + cnt ≤ n) : Delivers sz p pm src o cnt := fun j hj =>
  typed_rd h hsz (fun i hi => by
    have := hf.2 (o + i) (by omega)
    push_cast at this
    exact this) j hj

/-- C71 for RESCALE: `EncodeParams` succeeds with a buffer of the size that `GetEncodedParamsSize` reports and writes nothing behind that size.  For every
tile of `cnt` of the `n` parameter sets, from set `o` on, the caller's copies succeed at the offsets that `GetIOSizesAndOffsets` reports; after them the
kernel's four pointers refer to the user's input biases, scales, shifts and output biases of this tile. -/
theorem c71_rescale (n esi eso : Nat) (inBias scale shift outBias enc : Buf) (he : 1 ≤ esi ∧ 1 ≤ eso) (h1 : Fits esi n inBias) (h2 : Fits 2 n scale)
    (h3 : Fits 1 n shift) (h4 : Fits eso n outBias) (hs : rescaleEncodedSize n esi eso ≤ enc.size) :
    ∃ enc', rescaleEncode n esi eso inBias scale shift outBias enc = some enc' ∧ enc'.size = enc.size ∧
      (∀ a, a < 0 ∨ rescaleEncodedSize n esi eso ≤ a → enc'.get a = enc.get a) ∧
      ∀ (o cnt : Nat) (np pb : Int) (pm : Buf), o + cnt ≤ n → cnt ≤ np → 0 ≤ pb → pb + rescaleEncodedSize np esi eso ≤ pm.size →
        ∃ pm', fetchParams n o cnt pb enc' [esi, 2, 1, eso] (rescaleOffsets np esi) 0 pm = some pm' ∧ pm'.size = pm.size ∧
          Delivers esi ((rescalePtrs pb np esi).getD 0 0) pm' inBias o cnt ∧ Delivers 2 ((rescalePtrs pb np esi).getD 1 0) pm' scale o cnt ∧
          Delivers 1 ((rescalePtrs pb np esi).getD 2 0) pm' shift o cnt ∧ Delivers eso ((rescalePtrs pb np esi).getD 3 0) pm' outBias o cnt := by
  let l : List (Nat × Buf) := [(esi, inBias), (2, scale), (1, shift), (eso, outBias)]
  have hb : setBytes l = (esi : Int) + 2 + 1 + eso := by
    show (esi : Int) + (((2 : Nat) : Int) + (((1 : Nat) : Int) + ((eso : Int) + 0))) = _
    push_cast; ring
  have ht : totalBytes (arrays n l) = rescaleEncodedSize n esi eso := by rw [totalBytes_arrays, hb]; rfl
  obtain ⟨enc', k1, k2, k3, k4⟩ := encAll_ok (arrays n l) 0 enc (by
    intro e he
    simp only [arrays, l, List.map_cons, List.map_nil, List.mem_cons, List.not_mem_nil, or_false] at he
    rcases he with rfl | rfl | rfl | rfl
    exacts [h1.1, h2.1, h3.1, h4.1]) (le_refl _) (by rw [ht]; omega)
  rw [ht] at k4
  refine ⟨enc', k1, k2, fun a ha => k4 a (by omega), fun o cnt np pb pm ho hc hpb hp => ?_⟩
  obtain ⟨pm', q1, q2, q3, -⟩ := fetchParams_ok ho hc hpb l 0 pm (le_refl _) (by rw [Int.mul_zero]; exact k3) (by rw [hb, Int.zero_add]; exact hp)
  have eo : offsFrom np l 0 = rescaleOffsets np esi := by
    simp only [offsFrom, l, rescaleOffsets, Int.zero_add, Int.mul_zero]
    push_cast
    rfl
  rw [eo] at q1
  obtain ⟨r1, r2, r3, r4, -⟩ := q3
  refine ⟨pm', q1, q2, delivers_of ?_ he.1 h1 ho, delivers_of ?_ (by omega) h2 ho, delivers_of ?_ (by omega) h3 ho, delivers_of ?_ he.2 h4 ho⟩
  · simpa [rescalePtrs] using r1
  · convert r2 using 1
    simp [rescalePtrs]; ring
  · convert r3 using 1
    simp [rescalePtrs]; ring
  · convert r4 using 1
    simp [rescalePtrs]; ring

/-- C71 for PRELU with one parameter set for each of the `n` channels (see `c71_rescale`). -/
theorem c71_prelu (n : Nat) (bias pos neg posShift negShift asymm enc : Buf)
    (hn : bias.size = n ∧ pos.size = n ∧ neg.size = n ∧ posShift.size = n ∧ negShift.size = n ∧ asymm.size = n)
    (h1 : Fits 4 n bias) (h2 : Fits 2 n pos) (h3 : Fits 2 n neg) (h4 : Fits 1 n posShift) (h5 : Fits 1 n negShift) (h6 : Fits 1 n asymm)
    (hs : preluEncodedSize n ≤ enc.size) :
    ∃ enc', preluEncode bias pos neg posShift negShift asymm enc = some enc' ∧ enc'.size = enc.size ∧
      (∀ a, a < 0 ∨ preluEncodedSize n ≤ a → enc'.get a = enc.get a) ∧
      ∀ (o cnt : Nat) (np pb : Int) (pm : Buf), o + cnt ≤ n → cnt ≤ np → 0 ≤ pb → pb + preluEncodedSize np ≤ pm.size →
        ∃ pm', fetchParams n o cnt pb enc' [4, 2, 2, 1, 1, 1] (preluOffsets np) 0 pm = some pm' ∧ pm'.size = pm.size ∧
          Delivers 4 ((preluPtrs pb np).getD 0 0) pm' bias o cnt ∧ Delivers 2 ((preluPtrs pb np).getD 1 0) pm' pos o cnt ∧
          Delivers 2 ((preluPtrs pb np).getD 2 0) pm' neg o cnt ∧ Delivers 1 ((preluPtrs pb np).getD 3 0) pm' posShift o cnt ∧
          Delivers 1 ((preluPtrs pb np).getD 4 0) pm' negShift o cnt ∧ Delivers 1 ((preluPtrs pb np).getD 5 0) pm' asymm o cnt := by
  let l : List (Nat × Buf) := [(4, bias), (2, pos), (2, neg), (1, posShift), (1, negShift), (1, asymm)]
  have hb : setBytes l = 4 + 2 + 2 + 1 + 1 + 1 := rfl
  have ht : totalBytes (arrays n l) = preluEncodedSize n := by rw [totalBytes_arrays, hb]; rfl
  obtain ⟨enc', k1, k2, k3, k4⟩ := encAll_ok (arrays n l) 0 enc (by
    intro e he
    simp only [arrays, l, List.map_cons, List.map_nil, List.mem_cons, List.not_mem_nil, or_false] at he
    rcases he with rfl | rfl | rfl | rfl | rfl | rfl
    exacts [h1.1, h2.1, h3.1, h4.1, h5.1, h6.1]) (le_refl _) (by rw [ht]; omega)
  rw [ht] at k4
  obtain ⟨n1, n2, n3, n4, n5, n6⟩ := hn
  refine ⟨enc', ?_, k2, fun a ha => k4 a (by omega), fun o cnt np pb pm ho hc hpb hp => ?_⟩
  · unfold preluEncode
    rw [n1, n2, n3, n4, n5, n6, Int.toNat_natCast]
    exact k1
  obtain ⟨pm', q1, q2, q3, -⟩ := fetchParams_ok ho hc hpb l 0 pm (le_refl _) (by rw [Int.mul_zero]; exact k3) (by rw [hb, Int.zero_add]; exact hp)
  have eo : offsFrom np l 0 = preluOffsets np := by
    simp only [offsFrom, l, preluOffsets, Int.zero_add, Int.mul_zero, ← Int.mul_add]
    rfl
  rw [eo] at q1
  obtain ⟨r1, r2, r3, r4, r5, r6, -⟩ := q3
  refine ⟨pm', q1, q2, delivers_of ?_ (by omega) h1 ho, delivers_of ?_ (by omega) h2 ho, delivers_of ?_ (by omega) h3 ho, delivers_of ?_ (by omega) h4 ho,
    delivers_of ?_ (by omega) h5 ho, delivers_of ?_ (by omega) h6 ho⟩
  · simpa [preluPtrs] using r1
  · convert r2 using 1
    simp [preluPtrs]; ring
  · convert r3 using 1
    simp [preluPtrs]; ring
  · convert r4 using 1
    simp [preluPtrs]; ring
  · convert r5 using 1
    simp [preluPtrs]; ring
  · convert r6 using 1
    simp [preluPtrs]; ring

/-- C71 for CLIP with elements of 8 bits: the encoded buffer, copied to the local memory as a whole, gives the kernel the user's limits. -/
theorem c71_clip_partial (minV maxV enc : Buf) (h1 : Fits 1 1 minV) (h2 : Fits 1 1 maxV) (hs : clipEncodedSize ≤ enc.size) :
    ∃ enc', clipEncode minV maxV enc = some enc' ∧ enc'.size = enc.size ∧ (∀ a, a < 0 ∨ clipEncodedSize ≤ a → enc'.get a = enc.get a) ∧
      ∀ (pb : Int) (pm : Buf), 0 ≤ pb → pb + clipEncodedSize ≤ pm.size →
        ∃ pm', copyBytes clipEncodedSize.toNat enc' 0 pm pb = some pm' ∧ clipParams 1 pb pm' = some (minV.get 0, maxV.get 0) := by
  obtain ⟨enc', k1, k2, k3, k4⟩ := encAll_ok [(1, 1, minV), (1, 1, maxV)] 0 enc (by
    intro e he
    simp only [List.mem_cons, List.not_mem_nil, or_false] at he
    rcases he with rfl | rfl
    exacts [h1.1, h2.1]) (le_refl _) (by simp only [totalBytes]; unfold clipEncodedSize at hs; omega)
  unfold clipEncodedSize at *
  refine ⟨enc', k1, k2, fun a ha => k4 a (by simp only [totalBytes]; omega), fun pb pm hpb hp => ?_⟩
  obtain ⟨pm', q1, q2, q3, -⟩ := copyBytes_ok 2 enc' 0 pm pb (le_refl _) (by push_cast; omega) hpb (by push_cast; omega)
  refine ⟨pm', q1, ?_⟩
  obtain ⟨a1, a2, -⟩ := k3
  have v1 := a1.val 0 (by omega) 0 (by omega)
  have v2 := a2.val 0 (by omega) 0 (by omega)
  have c1 := q3 0 (by omega)
  have c2 := q3 1 (by omega)
  simp at v1 v2 c1 c2
  unfold clipParams
  rw [getLe_ok (v := minV.get 0) (by omega) hpb (by omega) (fun k hk => by
      obtain rfl : k = 0 := by omega
      simp only [Nat.cast_zero, Int.add_zero, pow_zero, Int.ediv_one]
      rw [c1, v1]) (by simpa using h1.2 0 (by omega)), Option.bind_some]
  rw [getLe_ok (v := maxV.get 0) (by omega) (by push_cast; omega) (by push_cast; omega) (fun k hk => by
      obtain rfl : k = 0 := by omega
      simp only [Nat.cast_zero, Int.add_zero, pow_zero, Int.ediv_one, Nat.cast_one]
      rw [c2, v2]) (by simpa using h2.2 0 (by omega)), Option.map_some]

/-! ### Cases -/

/-- Five channels with 32-bit input and 8-bit output; the tile of the channels 3 and 4 in a local buffer for three channels, 7 bytes behind its begin. -/
example : ∃ enc' pm', rescaleEncode 5 4 1 (Buf.ofList [-1, 2, -300000, 4, -5]) (Buf.ofList [1000, 2, 3, -400, 5]) (Buf.ofList [1, 2, 3, 40, -5])
      (Buf.ofList [1, -2, 3, -128, 5]) (Buf.ofList (List.replicate 40 0)) = some enc' ∧
    fetchParams 5 3 2 7 enc' [4, 2, 1, 1] (rescaleOffsets 3 4) 0 (Buf.ofList (List.replicate 31 9)) = some pm' ∧
    Delivers 2 ((rescalePtrs 7 3 4).getD 1 0) pm' (Buf.ofList [1000, 2, 3, -400, 5]) 3 2 := by
  obtain ⟨enc', h1, -, -, h2⟩ := c71_rescale 5 4 1 (Buf.ofList [-1, 2, -300000, 4, -5]) (Buf.ofList [1000, 2, 3, -400, 5]) (Buf.ofList [1, 2, 3, 40, -5])
    (Buf.ofList [1, -2, 3, -128, 5]) (Buf.ofList (List.replicate 40 0)) (by decide) ⟨by decide, by decide⟩ ⟨by decide, by decide⟩ ⟨by decide, by decide⟩
    ⟨by decide, by decide⟩ (by decide)
  obtain ⟨pm', g1, -, -, g2, -⟩ := h2 3 2 3 7 (Buf.ofList (List.replicate 31 9)) (by decide) (by decide) (by decide) (by decide)
  exact ⟨enc', pm', h1, g1, g2⟩

/-- The same for PRELU with two channels in one tile. -/
example : ∃ enc' pm', preluEncode (Buf.ofList [-1, 70000]) (Buf.ofList [1000, 2]) (Buf.ofList [10, -200]) (Buf.ofList [10, 2]) (Buf.ofList [11, 3])
      (Buf.ofList [1, -2]) (Buf.ofList (List.replicate 22 0)) = some enc' ∧
    fetchParams 2 0 2 0 enc' [4, 2, 2, 1, 1, 1] (preluOffsets 2) 0 (Buf.ofList (List.replicate 22 9)) = some pm' ∧
    Delivers 1 ((preluPtrs 0 2).getD 5 0) pm' (Buf.ofList [1, -2]) 0 2 := by
  obtain ⟨enc', h1, -, -, h2⟩ := c71_prelu 2 (Buf.ofList [-1, 70000]) (Buf.ofList [1000, 2]) (Buf.ofList [10, -200]) (Buf.ofList [10, 2])
    (Buf.ofList [11, 3]) (Buf.ofList [1, -2]) (Buf.ofList (List.replicate 22 0)) (by decide) ⟨by decide, by decide⟩ ⟨by decide, by decide⟩
    ⟨by decide, by decide⟩ ⟨by decide, by decide⟩ ⟨by decide, by decide⟩ ⟨by decide, by decide⟩ (by decide)
  obtain ⟨pm', g1, -, -, -, -, -, -, g2⟩ := h2 0 2 2 0 (Buf.ofList (List.replicate 22 9)) (by decide) (by decide) (by decide) (by decide)
  exact ⟨enc', pm', h1, g1, g2⟩

example : ∃ enc', clipEncode (Buf.ofList [-100]) (Buf.ofList [99]) (Buf.ofList [0, 0]) = some enc' ∧
    ∃ pm', copyBytes 2 enc' 0 (Buf.ofList [0, 0, 0]) 1 = some pm' ∧ clipParams 1 1 pm' = some (-100, 99) := by
  obtain ⟨enc', h1, -, -, h2⟩ := c71_clip_partial (Buf.ofList [-100]) (Buf.ofList [99]) (Buf.ofList [0, 0]) ⟨by decide, by decide⟩ ⟨by decide, by decide⟩ (by decide)
  exact ⟨enc', h1, h2 1 (Buf.ofList [0, 0, 0]) (by decide) (by decide)⟩

/-! ### Violations -/

/-- **Violation**: CLIP for elements of 32 bits reads two integers of four bytes, but the encoded buffer has the size of two bytes: the reads are out of
bounds. -/
theorem c71_clip32_violated : clipParams 4 0 (Buf.ofList (List.replicate clipEncodedSize.toNat 0)) = none := by decide

/-- **Violation**: and if the buffer is larger, the limits are wrong: the encoder writes the low byte of each limit only, behind each other.  Here the
limits -1000 and 1000 of the user become 59416 and 0. -/
theorem c71_clip32_values_violated :
    (clipEncode (Buf.ofList [-1000]) (Buf.ofList [1000]) (Buf.ofList (List.replicate 8 0))).bind (clipParams 4 0) = some (59416, 0) := by decide

/-- **Violation**: PRELU with one set of parameters (axis -1) for a tensor with two channels.  The encoder writes the arrays without gaps, the kernel
expects room for two elements in each: it reads the positive scale (5) where the bytes of another array are, and so on. -/
theorem c71_prelu_tensor_violated :
    (preluEncode (Buf.ofList [1]) (Buf.ofList [5]) (Buf.ofList [6]) (Buf.ofList [7]) (Buf.ofList [8]) (Buf.ofList [9])
      (Buf.ofList (List.replicate 22 0))).map (fun b =>
        ((typed 4 ((preluPtrs 0 2).getD 0 0) b).rd 0, (typed 2 ((preluPtrs 0 2).getD 1 0) b).rd 0, (typed 1 ((preluPtrs 0 2).getD 3 0) b).rd 0)) =
    some (some 1, some 2055, some 0) := by decide

end Mli.Rt
