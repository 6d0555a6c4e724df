/-
A minimal allocator used by the ownership models (`Mat2D`, `HarmonicCoeffs`, EOP tables).

Blocks are numbered in allocation order; `live` lists the blocks that have been allocated
and not freed.  Freeing a block that is not live (double free, or a never-allocated block)
is undefined behaviour and has no result.  `new[]` is assumed never to fail (in the C++ it
terminates the program: the callers are `noexcept`).
-/
namespace Verif.Heap

/-- Allocator state. -/
structure Heap where
  next : Nat
  live : List Nat
deriving DecidableEq, Repr

namespace Heap

/-- Nothing allocated yet. -/
def init : Heap := ⟨0, []⟩

/-- `new T[n]`: a block number never used before. -/
def alloc (h : Heap) : Nat × Heap := (h.next, ⟨h.next + 1, h.next :: h.live⟩)

/-- `delete[] p` for a non-null `p`; `none` is undefined behaviour. -/
def free (h : Heap) (p : Nat) : Option Heap :=
  if p ∈ h.live then some ⟨h.next, h.live.erase p⟩ else none

/-- `k` successive allocations. -/
def allocN (h : Heap) : Nat → List Nat × Heap
  | 0 => ([], h)
  | k + 1 =>
    let (p, h1) := h.alloc
    let (ps, h2) := allocN h1 k
    (p :: ps, h2)

/-- Successive frees of a list of blocks. -/
def freeAll (h : Heap) : List Nat → Option Heap
  | [] => some h
  | p :: ps => (h.free p).bind fun h' => freeAll h' ps

/-- Allocator invariant. -/
def WF (h : Heap) : Prop := h.live.Nodup ∧ ∀ p ∈ h.live, p < h.next

end Heap
end Verif.Heap
