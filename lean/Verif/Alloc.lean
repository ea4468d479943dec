import Verif.Base
/-!
# internal/allocator.h: the buffer allocator

`std::size_t` values are natural numbers below `W`, every operation on them is reduced modulo `W`;
`W` is `2^64` or, on a 32-bit system, `2^32` (`SizeT W`).  The C library's allocator is a parameter: the address that `aligned_alloc` would
return is an argument of `commit`.  The heap blocks owned by the object are tracked in the ghost
field `heap`, so that a double `free` is a fault and a leak is visible.
-/
namespace Gemmlowp

/-- `std::size_t` arithmetic wraps modulo `W`: the 32-bit and the 64-bit systems. -/
def SizeT (W : Nat) : Prop := W = 2 ^ 32 ∨ W = 2 ^ 64

/-- `i |= i >> s` of internal/common.h:158-162 (on an unsigned integer). -/
def smearStep (s i : Nat) : Nat := i ||| (i >>> s)

/-- internal/common.h:155-164 `RoundUpToPowerOfTwo<std::size_t>(n)`. -/
def roundUpToPowerOfTwo (W n : Nat) : Nat :=
  let i := (n + W - 1) % W
  let i := smearStep 1 i
  let i := smearStep 2 i
  let i := smearStep 4 i
  let i := smearStep 8 i
  let i := smearStep 16 i
  (i + 1) % W

/-- internal/common.h:136-146 `RoundUp<Modulus>(std::size_t i)` including the wrap-around of
`i + Modulus - 1`. -/
def roundUpSz (W modulus i : Nat) : Nat :=
  let j := (i + modulus - 1) % W
  j - j % modulus

/-- internal/allocator.h:46 `TypeId`. -/
inductive TypeId | uint8 | int8 | uint16 | int16 | uint32 | int32
  deriving DecidableEq, Repr

/-- `sizeof(T)` for the types registered at internal/allocator.h:65-70. -/
def TypeId.size : TypeId → Nat
  | .uint8 => 1
  | .int8 => 1
  | .uint16 => 2
  | .int16 => 2
  | .uint32 => 4
  | .int32 => 4

/-- internal/allocator.h:89 `kAlignment`. -/
def kAlignment : Nat := 64
/-- internal/allocator.h:93 `kMaxBlocks`. -/
def kMaxBlocks : Nat := 5

/-- internal/allocator.h:120-126 `Allocator::Handle`. -/
structure AHandle where
  index : Nat
  generation : Nat
  type : TypeId
  deriving DecidableEq, Repr

/-- internal/allocator.h:176-194, the fields of `Allocator`.  `offsets` has arbitrary contents where
it was not written.  `heap` is the ghost list of addresses obtained from `aligned_alloc` and not
yet freed. -/
structure Alloc where
  committed : Bool
  storageSize : Nat
  storage : Nat
  blocks : Nat
  bytes : Nat
  offsets : Buf Nat
  generation : Nat
  heap : List Nat

/-- internal/allocator.h:74-80, the constructor.  `garbage` is the indeterminate content of
`reserved_blocks_offsets_`. -/
def Alloc.init (garbage : Nat → Nat) : Alloc :=
  { committed := false, storageSize := 0, storage := 0, blocks := 0, bytes := 0,
    offsets := ⟨kMaxBlocks, garbage⟩, generation := 0, heap := [] }

/-- internal/platform.h:101 `aligned_free`, that is `free`: null is ignored, any other pointer must
be a live allocation. -/
def heapFree (heap : List Nat) (p : Nat) : M (List Nat) :=
  if p = 0 then .ok heap
  else if p ∈ heap then .ok (heap.erase p) else .error .badOp

/-- internal/allocator.h:170-174 `DeallocateStorage`.  As in the code `storage_` keeps the dangling
pointer. -/
def Alloc.deallocateStorage (a : Alloc) : M Alloc := do
  assertM (!a.committed)
  let heap ← heapFree a.heap a.storage
  pure { a with heap := heap, storageSize := 0 }

/-- internal/allocator.h:95-106 `Commit`.  `addr` is what `aligned_alloc` returns if called, 0 for
failure. -/
def Alloc.commit (W : Nat) (a : Alloc) (addr : Nat) : M Alloc := do
  assertM (!a.committed)
  let a ← (if a.bytes > a.storageSize then do
      let a ← a.deallocateStorage
      let a := { a with storageSize := roundUpToPowerOfTwo W a.bytes }
      pure { a with storage := addr, heap := if addr = 0 then a.heap else addr :: a.heap }
    else pure a)
  assertM (decide (a.storageSize = 0) || decide (a.storage ≠ 0))
  pure { a with committed := true }

/-- internal/allocator.h:108-115 `Decommit`. -/
def Alloc.decommit (W : Nat) (a : Alloc) : M Alloc := do
  assertM a.committed
  pure { a with
    committed := false, generation := (a.generation + 1) % W, blocks := 0, bytes := 0 }

/-- internal/allocator.h:130-150 `Reserve<T>(n)`; `index_` is stored in a `std::uint8_t`. -/
def Alloc.reserve (W : Nat) (a : Alloc) (t : TypeId) (n : Nat) : M (AHandle × Alloc) := do
  assertM (!a.committed)
  assertM (decide (a.blocks < kMaxBlocks))
  let bytes := roundUpSz W kAlignment (n * t.size % W)
  let offset := a.bytes
  let index := a.blocks
  let offsets ← a.offsets.write index offset
  let h : AHandle := { index := index % 256, generation := a.generation, type := t }
  pure (h, { a with offsets := offsets, blocks := a.blocks + 1, bytes := (a.bytes + bytes) % W })

/-- internal/allocator.h:154-167 `GetPointer<T>(h)`. -/
def Alloc.getPointer (W : Nat) (a : Alloc) (t : TypeId) (h : AHandle) : M Nat := do
  assertM a.committed
  assertM (decide (h.index < a.blocks))
  assertM (decide (h.generation = a.generation))
  assertM (decide (h.type = t))
  let offset ← a.offsets.read h.index
  pure ((a.storage + offset) % W)

/-- internal/allocator.h:82-86, the destructor; the result is the ghost heap afterwards. -/
def Alloc.destroy (a : Alloc) : M (List Nat) := do
  assertM (!a.committed)
  assertM (decide (a.blocks = 0))
  let a ← a.deallocateStorage
  pure a.heap

/-- One call made by a client.  A client holds the handles returned by its earlier calls of
`Reserve`; `get t k` is `GetPointer<t>` on the handle that the `k`-th call of `Reserve` (counting
from 0, over the whole life of the object) returned. -/
inductive AOp
  | reserve (t : TypeId) (n : Nat)
  | commit (addr : Nat)
  | decommit
  | get (t : TypeId) (k : Nat)
  deriving DecidableEq, Repr

/-- The object and the handles its client holds. -/
structure AWorld where
  a : Alloc
  handles : List AHandle

/-- Execute one call. -/
def AWorld.step (W : Nat) (w : AWorld) : AOp → M AWorld
  | .reserve t n => do
    let (h, a) ← w.a.reserve W t n
    pure { a := a, handles := w.handles ++ [h] }
  | .commit addr => do
    let a ← w.a.commit W addr
    pure { w with a := a }
  | .decommit => do
    let a ← w.a.decommit W
    pure { w with a := a }
  | .get t k =>
    match w.handles[k]? with
    | none => .error .oob
    | some h => do
      let _ ← w.a.getPointer W t h
      pure w

/-- Execute a sequence of calls, the most recent first. -/
def AWorld.run (W : Nat) (g : Nat → Nat) : List AOp → M AWorld
  | [] => .ok { a := Alloc.init g, handles := [] }
  | op :: h => do
    let w ← AWorld.run W g h
    w.step W op

end Gemmlowp
