import Verif.Model.EltRuntime
import Verif.Lemmas.Tiles
import Verif.Lemmas.EltTile

/-! # One round and all rounds of a run-time element-wise kernel -/

namespace Mli.Rt

open Mli Mli.Iter Mli.Spec

/-! ## Tile tensors -/

theorem zip_shape : ∀ {sz st : List Int}, sz.length = st.length → (List.zipWith Dim.mk sz st).map (·.shape) = sz := by
  intro sz
  induction sz with
  | nil => simp
  | cons a sz ih => intro st h; cases st with
    | nil => simp at h
    | cons b st => simp only [List.zipWith_cons_cons, List.map_cons]; rw [ih (by simpa using h)]

theorem zip_strides : ∀ {sz st : List Int}, sz.length = st.length → (List.zipWith Dim.mk sz st).map (·.stride) = st := by
  intro sz
  induction sz with
  | nil => intro st h; cases st <;> simp_all
  | cons a sz ih => intro st h; cases st with
    | nil => simp at h
    | cons b st => simp only [List.zipWith_cons_cons, List.map_cons]; rw [ih (by simpa using h)]

theorem zip_setShape : ∀ {sz sz' st : List Int}, sz.length = st.length → sz'.length = st.length →
    List.zipWith (fun (d : Dim) n => { d with shape := n }) (List.zipWith Dim.mk sz st) sz' = List.zipWith Dim.mk sz' st := by
  intro sz
  induction sz with
  | nil => intro sz' st h h'; cases st <;> cases sz' <;> simp_all
  | cons a sz ih => intro sz' st h h'; cases st with
    | nil => simp at h
    | cons b st => cases sz' with
      | nil => simp at h'
      | cons c sz' =>
        simp only [List.zipWith_cons_cons]
        rw [ih (by simpa using h) (by simpa using h')]

theorem prod_mono : ∀ {a b : List Int}, a.length = b.length → (∀ n ∈ a, 1 ≤ n) → (∀ d, d < b.length → a.getD d 0 ≤ b.getD d 0) → prod a ≤ prod b := by
  intro a
  induction a with
  | nil => intro b h _ _; cases b <;> simp_all
  | cons x a ih =>
    intro b h hp hle
    cases b with
    | nil => simp at h
    | cons y b =>
      have h1 := ih (b := b) (by simpa using h) (fun n hn => hp n (by simp [hn])) (fun d hd => by simpa using hle (d + 1) (by simpa using hd))
      have h2 := hle 0 (by simp)
      have h3 := hp x (by simp)
      have h4 := prod_pos (fun n hn => hp n (by simp [hn]) : ∀ n ∈ a, 1 ≤ n)
      simp only [List.getD_cons_zero] at h2
      unfold prod
      nlinarith

/-- A local buffer for tiles: a box of the largest tile at address `b` with strides `loc`. -/
structure Place (tiles loc : List Int) (b : Int) (size : Int) : Prop where
  len : loc.length = tiles.length
  inner : loc.getLast? = some 1
  inb : ∀ y, InShape tiles y → 0 ≤ b + offset loc y ∧ b + offset loc y < size
  inj : ∀ y z, InShape tiles y → InShape tiles z → offset loc y = offset loc z → y = z

/-- `t` is the tensor of a tile of size `sz` in a local buffer. -/
def IsTile (t : Tensor) (sz loc : List Int) (b : Int) : Prop := t.dims = List.zipWith Dim.mk sz loc ∧ t.base = b

section
variable {shape tiles : List Int} {T : Nat} {ps sz : Nat → List Int} {loc : List Int} {b : Int} {mem : Buf} {t : Tensor} {n : Nat}

theorem IsTile.shapeEq (h : IsTile t (sz n) loc b) (hl : (sz n).length = loc.length) : t.shape = sz n := by
  unfold Tensor.shape; rw [h.1, zip_shape hl]

theorem IsTile.stridesEq (h : IsTile t (sz n) loc b) (hl : (sz n).length = loc.length) : t.strides = loc := by
  unfold Tensor.strides; rw [h.1, zip_strides hl]

theorem IsTile.addr (h : IsTile t (sz n) loc b) (hl : (sz n).length = loc.length) (y : List Int) : t.addr y = b + offset loc y := by
  unfold Tensor.addr; rw [h.2, h.stridesEq hl]

theorem IsTile.next {sz' : List Int} (h : IsTile t (sz n) loc b) (hl : (sz n).length = loc.length) (hl' : sz'.length = loc.length) :
    IsTile (setShape t sz') sz' loc b := by
  refine ⟨?_, h.2⟩
  show List.zipWith _ t.dims sz' = _
  rw [h.1, zip_setShape hl hl']

theorem IsTile.laid (h : IsTile t (sz n) loc b) (hs : TileSeq shape tiles T ps sz) (hp : Place tiles loc b mem.size) (hr : 0 < shape.length ∧ shape.length ≤ 4)
    (hsm : prod tiles < 2 ^ 32) : t.Laid mem := by
  have hl : (sz n).length = loc.length := by rw [hs.lenS, hp.len, hs.lenT]
  have hsh := h.shapeEq hl
  have hdl : t.dims.length = shape.length := by
    have := congrArg List.length hsh
    unfold Tensor.shape at this
    rw [List.length_map, hs.lenS] at this
    exact this
  refine ⟨⟨⟨?_, by omega⟩, ?_, ?_⟩, ?_, ?_⟩
  · intro e
    rw [e] at hdl
    simp at hdl
    omega
  · rw [hsh]; exact hs.pos n
  · rw [h.stridesEq hl]; exact hp.inner
  · intro is his
    rw [hsh] at his
    rw [h.addr hl]
    exact hp.inb is (hs.local_ his)
  · rw [hsh]
    refine lt_of_le_of_lt (prod_mono (by rw [hs.lenS, hs.lenT]) (hs.pos n) fun d hd => ?_) hsm
    exact (hs.box n d (by rw [← hs.lenT]; exact hd)).2.2.1

end

/-! ## Operands -/

/-- An input of the kernel: its iterator, the address of its local buffer and the whole tensor in global memory. -/
structure EltIn where
  it : TIt
  base : Int
  glob : Glob

/-- Value of the input at a position of the output: a scalar is in the local buffer when the kernel is created. -/
def EltIn.val (i : EltIn) (mem : Buf) (x : List Int) : Int :=
  if scalarShape i.it.shape then mem.get i.base else i.glob.buf.get (offset i.glob.strides x)

/-- The input is a scalar, or it is tiled as the output is, with the tiles at `base` and all its elements in global memory. -/
structure EltIn.Ok (i : EltIn) (shape tiles : List Int) (skew : Int) (mem : Buf) : Prop where
  scalar : scalarShape i.it.shape = true → 0 ≤ i.base ∧ i.base < mem.size
  tiled : scalarShape i.it.shape = false → i.it = TIt.start (tileCfg shape tiles (List.range shape.length) skew) shape i.it.strides
  place : scalarShape i.it.shape = false → Place tiles i.it.strides i.base mem.size
  glob : scalarShape i.it.shape = false → ∀ x, InShape shape x → 0 ≤ offset i.glob.strides x ∧ offset i.glob.strides x < i.glob.buf.size

/-- State of an operand in round `n`: `sz` are the sizes of the tiles. -/
structure EltIn.At (i : EltIn) (mem : Buf) (n : Nat) (it : TIt) (o : Operand) : Prop where
  imm : scalarShape i.it.shape = true → o.t.dims = [] ∧ o.imm = mem.get i.base
  it : scalarShape i.it.shape = false → it = i.it.at n
  tile : scalarShape i.it.shape = false → IsTile o.t (i.it.at n).sizes i.it.strides i.base

section
variable {shape tiles : List Int} {skew : Int} {mem : Buf} {i : EltIn}

theorem EltIn.Ok.seq (h : i.Ok shape tiles skew mem) (hT : TilingOk shape tiles (List.range shape.length) skew) (ht : tiles.length = shape.length)
    (hs : scalarShape i.it.shape = false) :
    TileSeq shape tiles (totalCount (tileCfg shape tiles (List.range shape.length) skew)).toNat (fun n => (i.it.at n).getPos) fun n => (i.it.at n).sizes := by
  have := tileSeq_range hT ht i.it.strides
  rw [← h.tiled hs] at this
  simp only at this
  have e : i.it.cfg = tileCfg shape tiles (List.range shape.length) skew := by rw [h.tiled hs]; rfl
  rw [e] at this
  exact this

theorem EltIn.Ok.start (h : i.Ok shape tiles skew mem) : ∃ o, tileOperand i.it i.base mem = some o ∧ i.At mem 0 i.it o := by
  unfold tileOperand
  cases hs : scalarShape i.it.shape with
  | true =>
    rw [if_pos rfl, Buf.rd_some (h.scalar hs)]
    exact ⟨_, rfl, fun _ => ⟨rfl, rfl⟩, by simp [hs], by simp [hs]⟩
  | false =>
    rw [if_neg (by simp)]
    have h0 : i.it = i.it.at 0 := by
      conv_lhs => rw [h.tiled hs]
      rw [h.tiled hs]; rfl
    refine ⟨_, rfl, by simp [hs], fun _ => h0, fun _ => ⟨?_, rfl⟩⟩
    rw [← h0]

theorem EltIn.At.next {n : Nat} {it : TIt} {o : Operand} (h : i.Ok shape tiles skew mem) (hT : TilingOk shape tiles (List.range shape.length) skew)
    (ht : tiles.length = shape.length) (a : i.At mem n it o) : i.At mem (n + 1) it.next { o with t := setShape o.t it.next.sizes } := by
  refine ⟨fun hs => ?_, fun hs => ?_, fun hs => ?_⟩
  · obtain ⟨a1, a2⟩ := a.imm hs
    refine ⟨?_, a2⟩
    show List.zipWith _ o.t.dims _ = []
    rw [a1]; rfl
  · rw [a.it hs]; rfl
  · rw [a.it hs]
    have hq := h.seq hT ht hs
    have hl : ∀ n, (i.it.at n).sizes.length = i.it.strides.length := fun n => by rw [hq.lenS, (h.place hs).len, ht]
    exact (a.tile hs).next (n := n) (sz := fun n => (i.it.at n).sizes) (hl n) (hl (n + 1))

/-- The caller's copy of an input tile. -/
theorem EltIn.At.fetch {n : Nat} {it : TIt} {o : Operand} (h : i.Ok shape tiles skew mem) (hT : TilingOk shape tiles (List.range shape.length) skew)
    (ht : tiles.length = shape.length) (a : i.At mem n it o) {m : Buf} (hm : m.size = mem.size) :
    ∃ m', fetchTile i.glob it o m = some m' ∧ m'.size = m.size ∧
      (scalarShape i.it.shape = false → ∀ y, InShape (i.it.at n).sizes y →
        m'.get (i.base + offset i.it.strides y) = i.val mem (addPos y (i.it.at n).getPos)) ∧
      ∀ x, (scalarShape i.it.shape = false → ∀ y, InShape tiles y → i.base + offset i.it.strides y ≠ x) → m'.get x = m.get x := by
  unfold fetchTile
  cases hs : scalarShape i.it.shape with
  | true =>
    rw [if_pos (a.imm hs).1]
    exact ⟨m, rfl, rfl, by simp, fun _ _ => rfl⟩
  | false =>
    have hq := h.seq hT ht hs
    have hp := h.place hs
    have hl : (i.it.at n).sizes.length = i.it.strides.length := by rw [hq.lenS, hp.len, ht]
    have hne : o.t.dims ≠ [] := by
      intro e
      have := congrArg List.length (a.tile hs).1
      rw [e, List.length_zipWith, hq.lenS, hp.len, ht] at this
      have := hT.pos
      simp at *
      omega
    rw [if_neg hne]
    have eit : it = i.it.at n := a.it hs
    have ez : ∀ y, InShape (i.it.at n).sizes y → addPos y (zeros (i.it.at n).sizes) = y := fun y hy =>
      addPos_zeros (inShape_length _ _ hy).symm
    rw [eit, (a.tile hs).2]
    obtain ⟨m', k1, k2, k3, k4⟩ := copyBox_ok (size := (i.it.at n).sizes) (src := i.glob.buf) (sb := 0) (ss := i.glob.strides) (sp := (i.it.at n).getPos)
      (db := i.base) (ds := i.it.strides) (dp := zeros (i.it.at n).sizes) (dst := m)
      (fun y hy => by rw [Int.zero_add]; exact h.glob hs _ (hq.global hy))
      (fun y hy => by rw [ez y hy, hm]; exact hp.inb y (hq.local_ hy))
      (fun y z hy hz e => by
        rw [ez y hy, ez z hz] at e
        exact hp.inj y z (hq.local_ hy) (hq.local_ hz) (by omega))
    refine ⟨m', k1, k2, fun _ y hy => ?_, fun x hx => k4 x fun y hy => ?_⟩
    · have := k3 y hy
      rw [ez y hy, Int.zero_add] at this
      rw [this, EltIn.val, hs]
      rfl
    · rw [ez y hy]; exact hx rfl y (hq.local_ hy)

end

/-! ## The kernel -/

/-- The caller's arrangement for the whole run: tiling of the output, places of the local buffers, and no overlap except that the output tile may
replace an input tile. -/
structure EltOk (shape tiles : List Int) (skew : Int) (l r : EltIn) (loc : List Int) (bo : Int) (gos : List Int) (mem gout : Buf) : Prop where
  tiling : TilingOk shape tiles (List.range shape.length) skew
  rank : shape.length ≤ 4 ∧ tiles.length = shape.length
  small : prod tiles < 2 ^ 32
  left : l.Ok shape tiles skew mem
  right : r.Ok shape tiles skew mem
  shapes : l.it.shape = shape ∨ r.it.shape = shape
  place : Place tiles loc bo mem.size
  inputs : scalarShape l.it.shape = false → scalarShape r.it.shape = false → ∀ y z, InShape tiles y → InShape tiles z →
    l.base + offset l.it.strides y ≠ r.base + offset r.it.strides z
  outLeft : scalarShape l.it.shape = false → ∀ y z, InShape tiles y → InShape tiles z → l.base + offset l.it.strides y = bo + offset loc z → y = z
  outRight : scalarShape r.it.shape = false → ∀ y z, InShape tiles y → InShape tiles z → r.base + offset r.it.strides y = bo + offset loc z → y = z
  gin : ∀ x, InShape shape x → 0 ≤ offset gos x ∧ offset gos x < gout.size
  ginj : ∀ x y, InShape shape x → InShape shape y → offset gos x = offset gos y → x = y

theorem prod_ones : ∀ {ns : List Int}, (∀ n ∈ ns, n = 1) → prod ns = 1 := by
  intro ns
  induction ns with
  | nil => intro _; rfl
  | cons n ns ih => intro h; rw [prod, ih fun m hm => h m (by simp [hm]), h n (by simp)]; rfl

/-- An operand in a round: where it is and which values it has. -/
theorem EltIn.At.laid {shape tiles : List Int} {skew : Int} {mem : Buf} {i : EltIn} {n : Nat} {it : TIt} {o : Operand} {loc : List Int} {bo : Int}
    {tout : Tensor} (h : i.Ok shape tiles skew mem) (hT : TilingOk shape tiles (List.range shape.length) skew)
    (hr : shape.length ≤ 4 ∧ tiles.length = shape.length) (hsm : prod tiles < 2 ^ 32) (a : i.At mem n it o)
    (ht : IsTile tout ((TIt.start (tileCfg shape tiles (List.range shape.length) skew) shape loc).at n).sizes loc bo) (hp : loc.length = tiles.length)
    (hsep : scalarShape i.it.shape = false → ∀ y z, InShape tiles y → InShape tiles z → i.base + offset i.it.strides y = bo + offset loc z → y = z)
    {m : Buf} (hm : m.size = mem.size)
    (hv : scalarShape i.it.shape = false → ∀ y, InShape (i.it.at n).sizes y →
        m.get (i.base + offset i.it.strides y) = i.val mem (addPos y (i.it.at n).getPos)) :
    o.Laid tout m ∧ (o.t.dims = [] → scalarShape i.it.shape = true) ∧
      ∀ y, InShape tout.shape y → o.tileAt m y = i.val mem (addPos y ((TIt.start (tileCfg shape tiles (List.range shape.length) skew) shape loc).at n).getPos) := by
  have hq0 := tileSeq_range hT hr.2 loc
  have hl0 : ((TIt.start (tileCfg shape tiles (List.range shape.length) skew) shape loc).at n).sizes.length = loc.length := by
    rw [hq0.lenS, hp, hr.2]
  have hts := ht.shapeEq (sz := fun n => ((TIt.start (tileCfg shape tiles (List.range shape.length) skew) shape loc).at n).sizes) hl0
  have hta := fun y => ht.addr (sz := fun n => ((TIt.start (tileCfg shape tiles (List.range shape.length) skew) shape loc).at n).sizes) hl0 y
  cases hs : scalarShape i.it.shape with
  | true =>
    obtain ⟨a1, a2⟩ := a.imm hs
    refine ⟨⟨fun c => absurd a1 c, fun c => absurd a1 c, fun c => absurd a1 c⟩, fun _ => rfl, fun y _ => ?_⟩
    rw [Operand.tileAt, if_pos a1, a2, EltIn.val, hs]
    rfl
  | false =>
    have hq := h.seq hT hr.2 hs
    have hp' : Place tiles i.it.strides i.base m.size := hm ▸ h.place hs
    have hl : (i.it.at n).sizes.length = i.it.strides.length := by rw [hq.lenS, hp'.len, hr.2]
    have tl := a.tile hs
    have la := tl.laid (sz := fun n => (i.it.at n).sizes) hq hp' ⟨hT.pos, hr.1⟩ hsm
    have tsh := tl.shapeEq (sz := fun n => (i.it.at n).sizes) hl
    have tad := fun y => tl.addr (sz := fun n => (i.it.at n).sizes) hl y
    have es : (i.it.at n).sizes = ((TIt.start (tileCfg shape tiles (List.range shape.length) skew) shape loc).at n).sizes := by
      rw [h.tiled hs]; rfl
    have ep : (i.it.at n).getPos = ((TIt.start (tileCfg shape tiles (List.range shape.length) skew) shape loc).at n).getPos := by
      rw [h.tiled hs]; rfl
    have esh : o.t.shape = tout.shape := by rw [tsh, hts, es]
    refine ⟨⟨fun _ => la, fun _ => esh, fun _ y z hy hz e => ?_⟩, fun c => absurd c la.unit.rank.1, fun y hy => ?_⟩
    · rw [tad, hta] at e
      rw [tsh] at hy
      rw [hts] at hz
      exact hsep hs y z (hq.local_ hy) (hq0.local_ hz) e
    · rw [Operand.tileAt, if_neg la.unit.rank.1, tad, hv hs y (by rw [← tsh, esh]; exact hy), ep]

theorem elt_run {m : Rnd} {op : EltOp} {wi wo : Nat} {shape tiles : List Int} {skew : Int} {l r : EltIn} {loc : List Int} {bo : Int} {gos : List Int}
    {mem gout : Buf} {fl fr fo : Int} (h : EltOk shape tiles skew l r loc bo gos mem gout) :
    let out := TIt.start (tileCfg shape tiles (List.range shape.length) skew) shape loc
    ∃ o, EltObj.new op wi wo l.it r.it out l.base r.base bo fl fr fo mem = some o ∧
      (o.op = op ∧ o.wi = wi ∧ o.wo = wo ∧ o.fl = fl ∧ o.fr = fr ∧ o.fo = fo) ∧
      (o.supported = true → ∃ s, EltHost.run m l.glob r.glob gos (totalCount out.cfg).toNat ⟨o, mem, gout, .ok⟩ = some s ∧ s.status = .ok ∧
        Result shape gos (fun x => o.fn m (l.val mem x) (r.val mem x)) gout s.gout) := by
  intro out
  obtain ⟨ol, l1, l2⟩ := h.left.start
  obtain ⟨or, r1, r2⟩ := h.right.start
  have hT := h.tiling
  have hr := h.rank
  have hq := tileSeq_range hT hr.2 loc
  have hlen : ∀ n, ((out.at n).sizes).length = loc.length := fun n => by rw [hq.lenS n, h.place.len, hr.2]
  let o : EltObj := { op, wi, wo, left := l.it, right := r.it, out, tl := ol, tr := or, fl, fr, fo
                      tout := { dims := List.zipWith Dim.mk out.sizes out.strides, base := bo, cap := 0, es := 1 } }
  refine ⟨o, ?_, ⟨rfl, rfl, rfl, rfl, rfl, rfl⟩, fun hsup => ?_⟩
  · unfold EltObj.new
    rw [l1, Option.bind_some, r1, Option.map_some]
  let J : Nat → EltHost → Prop := fun n s => s.status = .ok ∧ s.mem.size = mem.size ∧ s.obj.fn m = o.fn m ∧ s.obj.supported = true ∧
    l.At mem n s.obj.left s.obj.tl ∧ r.At mem n s.obj.right s.obj.tr ∧ s.obj.out = out.at n ∧ IsTile s.obj.tout (out.at n).sizes loc bo ∧
    s.gout.size = gout.size
  obtain ⟨s', k1, k2, k3⟩ := tile_loop hq h.ginj (fun x => o.fn m (l.val mem x) (r.val mem x)) (fun s => EltHost.round m l.glob r.glob gos s)
    (fun s => s.gout) J ⟨o, mem, gout, .ok⟩ ⟨rfl, rfl, rfl, hsup, l2, r2, rfl, ⟨rfl, rfl⟩, rfl⟩ (by
    rintro n ⟨obj, m0, g0, st⟩ hn ⟨j1, j2, j3, j4, j5, j6, j7, j8, hgs⟩
    simp only at j1 j2 j3 j4 j5 j6 j7 j8 hgs
    obtain ⟨m1, f1, f2, f3, f4⟩ := j5.fetch h.left hT hr.2 j2
    obtain ⟨m2, e1, e2, e3, e4⟩ := j6.fetch h.right hT hr.2 (m := m1) (by omega)
    have hm2 : m2.size = mem.size := by omega
    have hp2 : Place tiles loc bo m2.size := hm2 ▸ h.place
    have f3' : scalarShape l.it.shape = false → ∀ y, InShape (l.it.at n).sizes y →
        m2.get (l.base + offset l.it.strides y) = l.val mem (addPos y (l.it.at n).getPos) := fun hs y hy => by
      rw [e4 _ fun hs' z hz e => h.inputs hs hs' y z ((h.left.seq hT hr.2 hs).local_ hy) hz e.symm]
      exact f3 hs y hy
    obtain ⟨a1, a2, a3⟩ := j5.laid h.left hT hr h.small j8 h.place.len h.outLeft hm2 f3'
    obtain ⟨b1, b2, b3⟩ := j6.laid h.right hT hr h.small j8 h.place.len h.outRight hm2 e3
    have hts := j8.shapeEq (sz := fun n => (out.at n).sizes) (hlen n)
    have hta := fun y => j8.addr (sz := fun n => (out.at n).sizes) (hlen n) y
    have la := j8.laid (sz := fun n => (out.at n).sizes) hq hp2 ⟨hT.pos, hr.1⟩ h.small
    have sep : obj.tout.Separate obj.tout := by
      intro y z hy hz e
      rw [hta, hta] at e
      rw [hts] at hy hz
      exact h.place.inj y z (hq.local_ hy) (hq.local_ hz) (by omega)
    have hne : obj.tl.t.dims ≠ [] ∨ obj.tr.t.dims ≠ [] ∨ prod obj.tout.shape = 1 := by
      by_contra hc
      push Not at hc
      obtain ⟨c1, c2, c3⟩ := hc
      apply c3
      have hone : ∀ k ∈ shape, k = 1 := by
        intro k hk
        have s1 := a2 c1
        have s2 := b2 c2
        unfold scalarShape at s1 s2
        rw [List.all_eq_true] at s1 s2
        rcases h.shapes with e | e
        · have := s1 k (by rw [e]; exact hk); simpa using this
        · have := s2 k (by rw [e]; exact hk); simpa using this
      rw [hts]
      apply prod_ones
      intro k hk
      obtain ⟨d, hd, rfl⟩ := List.getElem_of_mem hk
      have hd' : d < shape.length := by rw [← hq.lenS n]; exact hd
      have hb := hq.box n d hd'
      have e1 : (out.at n).sizes.getD d 0 = (out.at n).sizes[d] := by rw [List.getD_eq_getElem?_getD, List.getElem?_eq_getElem hd]; rfl
      have e2 : shape.getD d 0 = 1 := by
        rw [List.getD_eq_getElem?_getD, List.getElem?_eq_getElem hd']; exact hone _ (List.getElem_mem _)
      have hb2 : 0 ≤ (out.at n).getPos.getD d 0 ∧ 1 ≤ (out.at n).sizes.getD d 0 ∧ (out.at n).sizes.getD d 0 ≤ tiles.getD d 0 ∧
        (out.at n).getPos.getD d 0 + (out.at n).sizes.getD d 0 ≤ shape.getD d 0 := hb
      show (out.at n).sizes[d] = 1
      omega
    obtain ⟨m3, g1, g2⟩ := eltwise_laid (obj.fn m) obj.tl obj.tr obj.tout m2 la sep a1 b1 hne
    have ez : ∀ y, InShape (out.at n).sizes y → addPos y (zeros (out.at n).sizes) = y := fun y hy =>
      addPos_zeros (inShape_length _ _ hy).symm
    obtain ⟨g', c1, c2, c3, c4⟩ := copyBox_ok (size := (out.at n).sizes) (src := m3) (sb := bo) (ss := loc) (sp := zeros (out.at n).sizes)
      (db := 0) (ds := gos) (dp := (out.at n).getPos) (dst := g0)
      (fun y hy => by rw [ez y hy, g2.size]; exact hp2.inb y (hq.local_ hy))
      (fun y hy => by rw [Int.zero_add, hgs]; exact h.gin _ (hq.global hy))
      (fun y z hy hz e => by
        rw [Int.zero_add, Int.zero_add] at e
        exact addPos_inj (by rw [hq.len hy, hq.lenP n]) (by rw [hq.len hz, hq.lenP n]) (h.ginj _ _ (hq.global hy) (hq.global hz) e))
    simp only [Int.zero_add] at c3 c4
    refine ⟨⟨obj.update, m3, g', .ok⟩, ?_, ⟨rfl, ?_, ?_, ?_, ?_, ?_, ?_, ?_, ?_⟩, c2, ?_, c4⟩
    · unfold EltHost.round
      simp only
      rw [f1, Option.bind_some, e1, Option.bind_some]
      unfold EltObj.issue
      rw [if_pos j4, g1, Option.map_some, Option.bind_some]
      simp only
      rw [j7, j8.2]
      show (copyBox (out.at n).sizes m3 bo loc _ 0 gos (out.at n).getPos g0).map _ = _
      rw [c1, j1]
      rfl
    · show m3.size = mem.size
      rw [g2.size, hm2]
    · exact j3
    · exact j4
    · exact j5.next h.left hT hr.2
    · exact j6.next h.right hT hr.2
    · show obj.out.next = _
      rw [j7]; rfl
    · show IsTile (setShape obj.tout obj.out.next.sizes) _ _ _
      rw [j7]
      exact j8.next (n := n) (sz := fun n => (out.at n).sizes) (hlen n) (hlen (n + 1))
    · show g'.size = gout.size
      omega
    · intro y hy
      rw [c3 y hy, ez y hy]
      have := g2.elem y (by rw [hts]; exact hy)
      rw [hta] at this
      rw [this, a3 y (by rw [hts]; exact hy), b3 y (by rw [hts]; exact hy), j3])
  exact ⟨s', k1, k2.1, k3⟩

end Mli.Rt
