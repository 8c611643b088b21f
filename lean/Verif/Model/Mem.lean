/-!
# Memory and loops

A buffer is a bounds-checked array of elements; an access outside of it has no result (`none`),
so "the kernel returns `some _`" includes "no access left the buffer".
-/

namespace Mli

/-- The elements behind a data pointer: addresses `0 .. size-1`. -/
structure Buf where
  size : Int
  get : Int → Int

/-- Checked load. -/
def Buf.rd (b : Buf) (a : Int) : Option Int := if 0 ≤ a ∧ a < b.size then some (b.get a) else none

/-- Checked store. -/
def Buf.wr (b : Buf) (a v : Int) : Option Buf :=
  if 0 ≤ a ∧ a < b.size then some { b with get := fun x => if x = a then v else b.get x } else none

/-- `for (i = 0; i < n; i++) s = f(i, s);` -/
def forRange {σ : Type} : (n : Nat) → (f : Nat → σ → Option σ) → σ → Option σ
  | 0, _, s => some s
  | n + 1, f, s => (forRange n f s).bind (f n)

/-- A buffer holding the given elements (for examples). -/
def Buf.ofList (l : List Int) : Buf := { size := l.length, get := fun a => l.getD a.toNat 0 }

/-- Content of a buffer (for examples). -/
def Buf.toList (b : Buf) : List Int := (List.range b.size.toNat).map fun (i : Nat) => b.get i

end Mli
